# Formal model of openwisp/netjsonconfig in Lean 4

`/verif/lean/Verif/*.lean` holds a function by function model of the Python code and the theorems about it. `properties.jsonl` lists
the properties, `MANIFEST.json` the theorems that settle each of them, `seeded/LOG.jsonl` the wrong programs the theorems were tested against.

## Trusted base

* Lean 4.33.0's kernel. Every property theorem depends at most on the axioms `propext`, `Classical.choice`, `Quot.sound`
  (`tools/axioms.sh` prints them for every theorem of the manifest). No axiom is added, no proof is left open, no compiled code is
  trusted: `decide +kernel` is evaluation by the kernel.
* The reading of the Python source. The model is written by hand; every definition cites the file and lines it models and says where it
  simplifies. The code is never run. Evidence that the reading is right: `tools/fidelity/run.sh` reads the inputs and the expected values out of
  the project's own tests (as text) and evaluates the model on them: 401 of 401 pairs of the OpenWrt tests, 25 of 25 of the OpenVPN tests and 2 of 2
  of the WireGuard tests agree. These are tests of the model, not proofs, and no theorem depends on them.
* The modelling conventions below.

## Modelling conventions

* `Val` = None, bool, int, str, list, dict. Dicts are insertion ordered association lists; `Dict.set` overwrites in place or appends at the
  end, which is `dict.__setitem__` of CPython. Floats are not modelled.
* Python exceptions are values of `Except PyErr`; where an exception leaves a changed object behind (`render`, C69) the state is returned beside it.
* In-place mutation is a function returning the new value. Where a property is *about* aliasing (C11) a second, labelled model carries an
  owner tag on each container, and `C11_same_values` ties it to the plain model.
* Text is processed as `List Char`; `String` is only the carrier.
* Object identity (`id(el)` in `merge_list`): whether two equal scalars are the same object (interning) is a parameter `sh : Val → Bool` all
  theorems quantify over; containers are never the same object twice.
* `Env` collects functions of the standard library about which nothing is assumed unless a theorem says so: `str()` of lists and dicts, upper
  and lower case of non-ASCII text, the time zone tables, IPv6 addresses (`Ip6`). Theorems quantify over it.
* Regular expressions are hand written matchers for the exact patterns used, including the replacement language of `re.sub`. `ipaddress`
  (IPv4), `tarfile` (name, mode, data of the members), `json`, and Jinja2 (the exact templates, with `trim_blocks` and `lstrip_blocks`) are
  modelled by the part the code uses.
* `jsonschema` (Draft 4) is modelled by the keywords the schemas use (`Schema.lean`; `schemas_known`: they use no others; `SchemaSpec`: what they mean; `owValidate_depth`: the
  depth of references is no restriction); the schema is data transcribed by `tools/schema_gen.py` (`SchemaData.lean`, `SchemaData2.lean`), its assembly by `merge_config` is checked in `schema_merged`.
* Elsewhere the JSON schema of a backend is a parameter `schema : VDict → Except PyErr Unit` in the theorems on the life cycle: they hold whatever it
  accepts. What a theorem needs of the data is stated in its own hypotheses (`…OK` structures).

## What is modelled

| code in /repo/netjsonconfig | modules of the model | theorems in |
|---|---|---|
| `utils.py` merge_config, merge_list, evaluate_vars, sorted_dict, get_copy | `Base`, `Merge`, `MergeLemmas`, `Text`, `Vars` | `PropsMerge`, `PropsVars`, `PropsAlias` (C01–C18), `PropsPre*` (C97) |
| `backends/base/backend.py` construction, templates, validate, render, generate, json, files, parse | `Backend`, `Files` | `PropsFiles`, `PropsBackend` (C19–C32, C69), `PropsFileLayers` (C98), `PropsWrite` (C90), `PropsHistory`, `HistoryValid`, `PropsHistoryReal`, `PropsHistorySample`, `PropsHistoryOwisp`, `PropsHistoryOwSample` (C91) |
| `backends/base/converter.py`, `parser.py`, `renderer.py` | `Conv*`, `Uci` | everywhere |
| `exceptions.py`; `iter_errors` of jsonschema 4.26 for the keywords of the schemas | `Errors` | `PropsErrors`, `PropsErrorsSample` (C94) |
| `json.dumps`, `json.loads`, the filter `tojson` | `Json` | `PropsJson` (C75) |
| `openwrt/templates`, `openwrt/renderer.py`, `openwrt/parser.py` | `Uci`, `UciParse`, `UciLemmas` | `PropsUciRender`, `PropsUciParse`, `PropsUciRound`, `PropsArchive` (C30, C33–C38) |
| `openwrt/converters/` general, ntp, led, routes, rules, switch, radios, wireless, interfaces, wireguard_peers, default, openvpn, zerotier | one module each (`ConvSimple`, `Routes`, `Switch`, `Radio`, `Wireless`, `Interfaces`, `InterfacesBack`, `ZeroTier`, …) | `PropsConv`, `PropsRoutes`, `PropsSwitch`, `PropsRadio`, `PropsWireless`, `PropsWifiRound`, `PropsPeers`, `PropsDefault`, `PropsZeroTier`, `PropsZtRound`, `Iface*`, `PropsIfaces`, `PropsSections`, `PropsIfaceItems`, `PropsVpnUci` (C39–C56, C64, C67, C73, C74, C78, C79), `SchemaRadio`, `PropsWifiItems`, `PropsWifiItemsSample` (C99), `PropsNetItems`, `PropsNetItemsSample` (C100), `PropsSysItems`, `PropsSysItemsSample` (C101), `PropsVpnItems` (C102), `PropsZtItems` (C103), `PropsExtraItems`, `PropsExtraItemsSample` (C104), `PropsOwnPackages`, `PropsOwnPackagesSample` (C105) |
| `openwrt/openwrt.py` | `OpenWrt` | `Compose`, `Whole*`, `PropsWhole` (C71), `PropsNames` (C70), `Over*`, `PropsUnforged` (C82), `Same*`, `PropsOrder` (C83), `PropsCommute` (C84), `PropsLocal` (C85) |
| `openvpn/` converters, template, parser, `auto_client` | `OpenVpn` | `PropsOpenVpn*`, `PropsVpn*` (C57–C61, C72), `PropsVpnSays`, `PropsVpnBelow` (C88), `PropsVpnOrder` (C89), `AutoValid`, `AutoServer`, `PropsAuto*` (C92, C93) |
| `wireguard/`, `vxlan/` | `WireGuard` | `PropsWireGuard`, `PropsWgSamples` (C62, C63, C72) |
| `zerotier/` | `ZtBackend` | `PropsZtText`, `PropsZtBackend`, `PropsZtArchive` (C76) |
| `openwisp/` | `OpenWisp`, `OpenWispScripts` | `PropsOpenWisp`, `PropsOwFiles`, `PropsOwContext` (C65), `PropsOwScripts`, `PropsOwInstall`, `PropsOwLines`, `PropsOwTc`, `PropsOwDoes` (C86), `SchemaOwisp`, `PropsValidOwisp`, `PropsValidOwispSample` (C87) |
| `schema.py`, `openwrt/schema.py`, `openvpn/schema.py`, `openwrt/timezones.py` | `SchemaData`, `SchemaData2`, `SchemaMore`, `Schema`, `SchemaSpec`, `SchemaFacts`, `SchemaOw`, `SchemaChecks`, `Safe*` | `PropsValid`, `PropsValidNeeds`, `PropsValidSample` (C66), `PropsSchema` (C80), `PropsValidVpn` (C81), `PropsZones` (C77) |
| `bin/netjsonconfig` | `Cli`, `CliMore` | `PropsCli` (C68), `PropsCliMore` (C96) |

Not modelled: floats, lone surrogates, byte strings; `argparse` and the texts of error messages; the layout of tar and gzip files (a
member is a name, a mode and its bytes); the burst rates of OpenWISP's tc_script.sh (products of floating point numbers: a parameter); threads (nothing in the code is shared
between objects except class attributes, which are read only after import).

## How the properties are proved

| id | how |
|----|-----------|
| C01–C04, C12 | structural induction on the configuration; algebra of lookups in ordered dicts |
| C05, C10 | induction; false in general, the counterexamples are theorems |
| C06–C08 | refinement of `merge_list` to a list specification |
| C09 | induction over the template list |
| C11 | labelled trees; invariant "no caller-owned container in the result" |
| C13–C18 | induction over text and data |
| C19, C20, C23 | the matcher of the path pattern equals a component-wise specification |
| C21–C25 | induction over the files |
| C26–C29, C31, C32, C69 | invariants of the state machine over operation sequences |
| C30, C33–C38 | round trip of text by induction over packages, blocks, options |
| C39–C45, C52–C54 | round trip of one converter through the text (`viaText`), induction over the list of objects |
| C46, C47, C56 | case analysis over radios, round trip |
| C48–C51 | specification of the options by key, round trip by cases of the encryption |
| C55 | scan of the interfaces equals a specification |
| C57–C61, C72 | native text round trip, line by line specification |
| C62, C63 | specification of the text by its lines |
| C64 | induction over the networks |
| C65 | line by line refinement to the OpenWrt text; archive by groups of lines |
| C66 | model of `jsonschema` and of the schemas; totality of every converter on valid data; the exceptions are counterexamples (see below) |
| C67, C74 | the blocks of every interface type as a function of its groups of addresses |
| C77 | the table is data; what the loop that reverses it leaves is characterised by induction over any table; facts about each zone by evaluation of the whole table in the kernel |
| C78 | the same blocks, option by option: a function from option names to values for devices and for sections, threaded through the list of interfaces with the VLAN devices seen so far |
| C80 | meaning of a JSON schema as a relation, keyword by keyword (`SchemaSpec`), regular expressions by what they match; the validator decides it: derivatives of regular expressions, equality of JSON values, depth of references; every schema found in the six documents has the expected shape, by evaluation of the data |
| C81 | as C66, for the schemas and converters of the VPN backends; here every step succeeds, so the result is success and not only the absence of internal errors |
| C70, C82 | `Over A x`: all texts inside `x` are over a set of characters; every operation of every converter keeps this (tactic `over`), so the intermediate data has no line breaks; the text is then exactly its lines. Names: invariants of the loop over converters on the packages of the result and the files of the configuration |
| C83 | `SameD X d e`: the same options in any order, related values under the keys `X`; every operation of every converter keeps it (tactic `same`) and every section is sorted at the end, so that the blocks are equal; the loop over packages by permutation; the validator by induction on the depth |
| C84 | merging reads and writes only the keys of the template, so two disjoint templates commute up to the order of keys; merging and evaluation keep equality up to order; C83 for the rest |
| C85 | for each converter, the keys it reads and the packages it writes (`ReadsOnly`); a loop over converters where those that write followed packages read the given sections only; merging is key by key; C82 for the files |
| C86 | scripts are read line by line, for lines of a given beginning and end (`named`); every line of the templates is compared with the query (`between_other`, `between_end`); a name without line break stays on its line |
| C87 | the consequences of the schema used in C66 (`OwFacts`) are found in the schema of OpenWisp as well (`implies`, one kernel evaluation each), with three more for the scripts; converters keep what the scripts need (`ScriptsFit`) |
| C88 | what an option says as a function of the configuration (`optionSays`), independent of the converter's steps; the block, sorted, has the same keys and lines (two sorted lists with the same elements are equal); then C59, C60 and the splitting of C72; names from the schema by `implies` and the meaning of regular expressions |
| C89 | the relations of C83 for the converters of the VPN backends (`SameD`), and a general lemma for classes with one converter; ZeroTier: `sortDeep` of equal data is equal, by induction |
| C90 | the operations on files as a list; every prefix of it is a crash point |
| C91 | invariant over histories: the object is fresh, or in the one state every rendering leaves; that state is valid for the schema because converters keep the sections of the schema and the files they make fit the schema of files; OpenWisp objects have four such states (fresh, explicit radios, rendered, archived) |
| C92 | a valid server is inverted: the schema's `oneOf` and `allOf` give the conditions on each option; the client has the same values at the same keys (C61), or values made from them; then the schema of clients is checked key by key. Patterns by the meaning of regular expressions |
| C93 | the same for tunnels of WireGuard and VXLAN (from the schema: name and port), and a list of networks of any length; the object made belongs to exactly one of the nine kinds of interfaces, because the others ask for another type |
| C94 | the errors of the library as a tree (`errors`), with the same recursion as `valid`; no error iff valid, by induction; the listing of the tree against an inductive relation `Shown`; the context of an error is the concatenation of the errors of its alternatives, none of them empty |
| C95 | every converter, check and schema seen as a function of the members kept by a filter (`Blind`, `BlindClass`); simulation over any history of calls; the default converter skips members that are no lists; the top of every schema has only `type`, `definitions`, `properties`, `required` (checked by evaluation) |
| C96 | case analysis of the program; printed text is read back (C75), evaluated without effect (C17) and means the same (C95) |
| C97 | a replacement of texts that is injective inside of lists commutes with merging: keys of list elements, equality and the folds of `merge_config` seen through the replacement |
| C98 | files have no identifiers, so C06 makes the merge of their lists a concatenation without known elements; then C21 |
| C99 | every radio the schema accepts is one of the alternatives of `ValidRadio` (soundness of a checker for the nine `oneOf` alternatives); then the loop over the converters: those before and after write other packages (C70's read and write sets), the two lists are mapped section by section and appended by the merge since names differ |
| C100 | every converter that writes the package, inverted: whenever it succeeds, its sections say what the objects say; `Grows`, the relation between the package before and after a step of the loop, is composed along the converters (the others write other packages); merging appends when the names differ |
| C101 | the converters of general settings, NTP and LEDs inverted, composed along the loop with `Grows` as in C100; the section of the general settings is specified by its options, with the time zone as name and POSIX text |
| C102 | the converter inverted step by step (`removed` options, remotes, ciphers, TLS key), each step specified by the option it changes; the nine earlier converters write other packages and leave `openvpn` alone (`skip_many`), the later ones do not write it because the key is defined |
| C103 | as C102: induction on the VPNs and on their networks, the eleven earlier converters are skipped |
| C104 | all twelve other converters are skipped: they neither read nor write the package; the default converter runs over the keys that are left, one step for each |
| C105 | the proofs of C99, C100 and C101 up to the last converter (`wireless_before`, `network_before`, `system_before`), which appends the listed sections (`own_grows`) |
| C79 | the OpenVPN converter of OpenWrt, both ways, with UCI text between; the section described as a function from option names to values, then each step of the way back |
| C68 | case analysis of the program |
| C71 | composition: what converters make of disjoint parts of a configuration, and how they take their blocks back one after the other |
| C73 | passes over lists of interfaces with their own blocks |
| C75 | the reader consumes exactly what the writer wrote, by induction over the data |
| C76 | C75 with comments and blank lines |

Every round trip theorem has the shape: objects meeting `XOK`, a predicate readable without the model, come back as a
specification `xBack` says (usually: themselves). Every condition that is not obvious has a theorem `…_needs_…` showing by evaluation what goes wrong
without it; a `…_ok`/`sample…` case shows that the conditions are met.

## Findings about the code

Facts about the program met while proving, each by a theorem where one is named.

* Merging: not idempotent when identifiers repeat inside a list (`C05_needs_distinct`); not associative for dict over scalar over dict
  (`C10_needs_no_dict_over_scalar`); repeated identifiers inside one list lose elements (`C07_needs_distinct`); a dict as identifier raises TypeError.
* A file of the configuration that equals the file of an earlier template does not override a template in between that changed it: the archive gets the template's file
  (`C98_needs_new`), against the rule that the configuration wins.
* Variables are replaced after merging, so that elements of lists that get the same name by a variable are not merged (`C97_needs_different`).
* Variables: backslashes in values are mangled or raise re.error, values with braces are expanded again (`C15_needs_*`, `C18_needs_brace_free`).
* Files: the size written in the archive counts characters, so non-ASCII contents are cut (`C22_needs_ascii`, `C37_needs_ascii`); the mode pattern accepts a trailing
  line break (`C25`); contents with outer line breaks are not told apart in the text (`C24_needs_no_outer_line_breaks`).
* Forged lines and files: values with line breaks, which `validate()` accepts, add options, packages and archive members outside of the directory
  (`C82_needs_unbroken_values`, `C82_needs_unbroken_lines`, `C82_needs_unbroken_key`), and so do variables with a backslash and an `n` (`C82_needs_no_backslash`); names of custom packages, the path of `ca` and `config_path` are not checked, and
  lead members of the archive outside of the directory (`C70_needs_package_names`, `C70_needs_key_path`, `C70_needs_map_path`).
* UCI text: quotes, line breaks and four blanks in values are not preserved, a line break forges options (`C33_needs_*`).
* Names: blocks of a package are merged by name whatever their type: a LED called `ntp`, a route called `route2`, two sections with
  the same name (`C71_needs_names`, `C45_needs_condition`, `C67_needs_distinct`, `C73_needs_sections`). Custom blocks in the package `network` come back as WireGuard peers (`C71_needs_custom`).
* Life cycle: after a converter failed, the next `render()` silently outputs the partial data (`C69_after_failed_conversion`). The default
  converter removes packages from the configuration, so `json()` changes after `render()` (C27, C28).
* Messages: `_list_errors` pairs the i-th alternative with the i-th of the errors of all alternatives, so what is told of an alternative is often the reason of another, and most
  reasons are not told (`C94_needs_one_reason`). `str()` of a `ParseError` raises AttributeError (`C94_parse_error`).
* Automatic clients: the defaults of `wireguard_auto_client` (public key, network, server) and the VNI 0, default of `vxlan_wireguard_auto_client`, are refused by OpenWrt's schema, although the
  VXLAN backend accepts VNI 0 (`C93_needs_args`, `C93_needs_vni`); `client_options` are copied into every network of ZeroTier (`C93_needs_options`).
* `write()` empties the old archive before the new one is written (`C90_needs_no_interruption`); with an empty path it writes to the root directory (`C90_needs_path`).
* Paths made by converters are added after validation: `tls_auth` and the ZeroTier device map (`C64_path_not_validated`, `C60_needs_distinct_paths`).
* Routes and rules: host bits dropped (`C42_needs_hostBits`) or refused with ValueError (`C43_refused`).
* Switches: VLAN counter shared between switches (`C44_needs_one_switch`), switch without VLANs not restored (`C44_needs_vlan`).
* Radios: `C46_needs_agreement`, `C47_needs_*`, `C56_missing_protocol`.
* Wi-Fi: `C48_needs_*`; `network` given as text is joined character by character.
* OpenVPN: the parser keeps the last of repeated keys, fails on `remote` (`C57_needs_no_remote`), on an empty cipher (`C57_needs_cipher_name`);
  line breaks forge options; file names containing `.conf` collide (`C72_needs_names`); `auto_client` with ns_cert_type `server` raises KeyError (`C61_needs_cert_type`).
* WireGuard: `address` is not required by the schema and its absence is a KeyError (`C62_needs_address`); lines in values forge sections (`C62_needs_one_line`).
* The entry of `Asia/Qostanay` in timezones.py (l.282) is a set of two texts instead of a pair: depending on the hashes of the process the zone is refused, and
  `<+06>-6` is a zone (`C77_needs_order`).
* A POSIX time zone that is not in the table is refused with `KeyError` when a configuration is read (`C77_unknown`).
* ZeroTier: everything that looks like a comment is removed from texts (`C76_needs_no_comments`); in OpenWrt networks come back twice (`C64_twice`),
  those of a second entry in the first (`C64_needs_one_entry`).
* OpenWISP: the word `package ` in a value splits the archive (`C65_needs_no_package_word`); its own archives cannot be read back (`C65_not_read_back`); a user's `/install.sh` gives two members
  of the same name (`C65_needs_distinct_paths`).
* Interfaces: names that collide (`C73_needs_*`), `ageing_time` comes back as text (`C73_needs_no_ageing`), bridges not called `br-…` are renamed
  (`C73_needs_bridge_name`), a DNS server is listed once for each interface using it (`C73_interfaces`).
* Command line: an argument with two `=` is refused, `1` and `0` become booleans (`C68_arguments`), errors other than those named in C68 are uncaught.
* Valid configurations whose rendering raises an internal error (each a theorem `C66_needs_…`): IPv4 mask > 32 (the schema says `maxmium`); `vlan_filtering: [{}]`; VLAN
  filtering on something that is not a bridge; a bridge named like the VLAN device of an earlier one; a WireGuard interface without addresses; odd addresses of modem-manager
  and VXLAN interfaces; a route destination that is no network; custom package options that are not text; objects as `id`, `globals_id`, `name`; `wireless` on a wired
  interface; encryption of a monitor; an OpenVPN server with `remote`; extra `ipaddr`, `ip6addr`, `network` in addresses and encryption.
* Time zones: two entries of `timezones.py` (l. 282, 380) are sets instead of tuples, so which of the two texts is the name is not determined.
* OpenVPN: the path of an inline TLS key (directory of `ca`) is added after validation and never checked, so a valid configuration gives an archive with members outside of its directory (`C88_needs_key_path`); the names of WireGuard tunnels may contain slashes, with the same effect (`C88_wireguard_escapes`).
* OpenWISP: radios that are no objects make `validate()` raise `AttributeError`, before the schema is consulted (`C87_radios`).
* OpenWISP: names are put into install.sh, uninstall.sh and tc_script.sh without quotes: a bridge named `br0;reboot` is valid, and adds a command; a radio name may even contain line breaks (`C86_not_quoted`, `C86_needs_one_line`).
* A route (or rule, …) with the name of an interface is merged with its block, which becomes a route: the interface is lost; with the name of the device of a bridge, Wi-Fi interfaces leave the bridge (`C85_needs_routes`).
* Options with a dictionary as value (allowed by the schema) and `vlan_filtering` of bridges in the older syntax are written as `str(dict)` (`C83_needs_tidy`).
* Command line: `--method write --arg name=1` writes `True.tar.gz`, `path=1` ends with AttributeError (`C96_needs_text`); what `--method json` prints is evaluated again when given
  back, so a value that is the placeholder of another variable changes the result (`C96_needs_settled`).
* Patterns of the schema ending in `$` accept a trailing line break.
* Reading UCI: text before the first package is lost; an option followed by a list of the same name is a TypeError; a `globals` block replaces the interfaces read so far;
  `lstrip("vlan_")` strips characters, not the prefix; a device with `vlan_filtering` and no `bridge-vlan` is a TypeError; a port `eth0:` is an IndexError; WireGuard without `listen_port`
  is a TypeError; IPv6 without prefix gets /32; a gateway is kept on the first address whose network contains it only.

# ---------------------------------------------------------------- templates / merging
p("C01","Configuration overrides template, key by key",
  "For merge_config(template, config): a key present only in the template keeps its value, a key present only in the config gets the config's value, and a key present in both gets the config's value unless both values are dicts (merged recursively) or both are lists (merged as lists). No other key appears.",
  "every pair of dictionaries, every key, every nesting depth, every list of identifiers",
  "the rule must hold for every shape and depth of two independent trees", [U+":merge_config"])
p("C02","A scalar set in the config is visible at the same path after merging",
  "Whatever the templates contain, if a path of dict keys leads to a scalar (string, number, bool, null) in the main config, and the merge succeeds, the same path leads to the same scalar in the merged configuration; and a path of the template which the config does not touch keeps its value.",
  "every template, config and path of any length",
  "paths and trees are unbounded", [U+":merge_config", B+":_merge_config"])
p("C03","Dict/list conflicts are rejected, and nothing else is",
  "merge_config raises the library ValidationError exactly when, at some key reachable in both inputs, one side is a dict and the other a list; it raises it for no other reason.",
  "every pair of dictionaries (identifiers of list elements hashable)",
  "requires knowing that no other input shape raises or is silently accepted", [U+":merge_config"])
p("C04","Empty template or empty config is neutral",
  "Merging {} on top of a configuration, or a configuration on top of {}, gives that configuration back, including the order of the keys.",
  "every dictionary", "unbounded input", [U+":merge_config"])
p("C05","Applying the same template twice changes nothing",
  "merge(merge(t, c), c) == merge(t, c) whenever no list of c contains two elements with the same identifier or the same object twice (identifiers being scalars); with a repeated identifier it may differ.",
  "every template t and config c for which the merge succeeds",
  "depends on every list shape, identifiers and duplicates", [U+":merge_config", U+":merge_list"])
p("C06","List merge: order and identity",
  "merge_list(l1, l2, identifiers) contains first the elements of l1 in their order (those sharing an identifier with an element of l2 replaced by the merge of the two) and then the elements of l2 that match nothing in l1, in their order.",
  "every pair of lists, every identifier list",
  "needs all element orders and all identifier coincidences", [U+":merge_list"])
p("C07","List merge loses no element",
  "If identifiers are pairwise distinct inside each list, then every element of l1 and every element of l2 is represented in merge_list(l1, l2): either itself, or merged with the element of the other list which has the same identifier.",
  "every pair of lists with distinct identifiers", "all lists", [U+":merge_list"])
p("C08","List merge does not duplicate common elements",
  "An element of the config list that equals (Python ==) an element of the template list is not added a second time.",
  "every pair of lists", "all lists", [U+":merge_list"])
p("C09","Template chain: later templates win, main config wins over all",
  "With templates [t1..tn] and config c the configuration is the left-to-right merge of t1..tn then c; a scalar defined at a top-level key by c is the final one; otherwise the last template defining it with a scalar decides; with no templates the configuration is c itself.",
  "every number of templates and every content",
  "histories of merges of any length", [B+":BaseBackend._merge_config", U+":merge_config"])
p("C10","Grouping of templates does not matter (list-free data)",
  "Merging is associative for configurations that contain no lists: merging t1 with (t2 merged with t3) gives what merging (t1 merged with t2) with t3 gives, as long as t3 has no dict at a key where t2 has a scalar (then it may differ).",
  "every three list-free dictionaries", "unbounded trees", [U+":merge_config"])
p("C11","The constructor never changes the caller's objects",
  "After constructing a backend with config, templates and context, no dict or list of the resulting backend configuration is shared with the caller's config or templates, so variable evaluation and rendering (which mutate in place) cannot change them.",
  "every config and template list",
  "aliasing bugs show only for particular shapes and histories of mutations", [B+":BaseBackend.__init__", B+":_merge_config", U+":merge_config", U+":evaluate_vars"])
p("C12","Merged key order is deterministic",
  "The keys of the merged dict are the template's keys in template order followed by the config's new keys in config order; the order of rendered packages therefore depends only on the inputs.",
  "every pair of dictionaries", "unbounded input", [U+":merge_config"])
# ---------------------------------------------------------------- variables
p("C13","Variable evaluation only rewrites string values",
  "evaluate_vars returns a structure with the same keys in the same order, the same list lengths and the same non-string values; only string values may differ and each is the evaluation of the original string.",
  "every structure and context", "every tree shape", [U+":evaluate_vars"])
p("C14","Unknown variables and plain strings are left alone",
  "A string none of whose {{ name }} placeholders is defined in the context is returned unchanged, in particular a string with no placeholder.",
  "every string and context", "all strings", [U+":evaluate_vars", U+":var_pattern"])
p("C15","Variables are replaced literally and simultaneously",
  "Provided the context values used contain no '{' and no backslash and the text has no '{{' left when its placeholders are removed, every placeholder whose name is in the context is replaced by exactly str(value), all other text is unchanged, and text inserted for one variable is not expanded again. Each of the three conditions is necessary.",
  "every text, every set of placeholders and every context meeting the conditions",
  "interactions of several variables, and of values with the regex engine, appear only for special values", [U+":evaluate_vars"])
p("C16","Blank space inside the braces is irrelevant",
  "{{name}}, {{ name }} and any other amount of white space between the braces and the name of a defined variable evaluate to the same text (under the conditions of C15).",
  "every text, context and amount of white space", "unbounded", [U+":evaluate_vars"])
p("C17","No context means no evaluation",
  "With an empty or missing context the configuration is exactly the merged one.",
  "every configuration", "all inputs", [B+":_evaluate_vars"])
p("C18","Evaluating twice is the same as once",
  "Under the conditions of C15, evaluating the result again with the same context changes nothing; it can when a value contains braces.",
  "every text and context meeting the conditions", "all texts", [U+":evaluate_vars"])
# ---------------------------------------------------------------- additional files
p("C19","Accepted file paths cannot escape the extraction directory",
  "If validate() accepts a configuration, resolving any path of its files relative to a root directory never leaves that root: there is no empty, '.' or '..' component, at most one leading slash.",
  "every files list and path string", "all strings", [B+":_validate_file_paths"])
p("C20","Exactly the documented file paths are accepted",
  "A path without template variables is accepted iff it is made of letters, digits, '.', '_', '-' and '/', has at least one component, and no component is empty, '.' or '..' (one leading slash allowed). An unterminated '{{' or a stray brace is always rejected.",
  "every string", "all strings", [B+":_validate_file_path_chars", B+":_validate_file_paths"])
p("C21","Files are deduplicated by path, last definition wins",
  "After rendering, the files list has one entry per path; the entry is the last one defined for that path, entries are in order of first appearance of their path, and deduplicating again changes nothing.",
  "every files list", "all lists", [B+":_deduplicate_files"])
p("C22","The archive stores ASCII file contents completely",
  "The bytes of an archive member are a prefix of the UTF-8 encoding of the contents given for it, one byte per character: they are the complete encoding exactly when the contents are ASCII (a file with other characters is cut short).",
  "every text, including non-ASCII", "tests use ASCII samples", [B+":_add_file"])
p("C23","Archive members of accepted files have safe names",
  "For every file list accepted by validate(), the members written for it have a relative name with no '.', '..' or empty component.",
  "every accepted files list",
  "generated files depend on other options (ca path, config_path)", [B+":_process_files", "netjsonconfig/backends/openvpn/converters.py:__add_tls_auth_key", WC+"zerotier.py"])
p("C24","The rendered files section shows every file completely",
  "render() appends after the native configuration, for every file in order, its path, mode and exact contents, provided the contents are not empty and neither start nor end with a line break nor contain three in a row (otherwise different contents can be shown alike).",
  "every files list", "all contents", [B+":_render_files", B+":render"])
p("C25","File modes are interpreted as octal",
  "The permission bits of an archive member are the octal value of the mode string (default 0644) and every schema-valid mode is convertible.",
  "every string of 3 or 4 octal digits", "all mode strings", [B+":_add_file", "netjsonconfig/schema.py"])
# ---------------------------------------------------------------- backend life cycle
p("C26","Rendering is repeatable",
  "If render() succeeds and the configuration it leaves in the object is valid (always the case when the converters do not change it and removing duplicate files keeps it valid), calling it again any number of times succeeds, returns the same text and leaves the object unchanged.",
  "every configuration accepted by the first call, any number of repetitions",
  "state carried between calls", [B+":render", B+":to_intermediate", B+":_deduplicate_files"])
p("C27","render() does not change what json() returns",
  "When the converters do not change the configuration and no file path is given twice, json() returns the same document before and after render(); with repeated paths every key but files is the same.",
  "every configuration", "history of calls", [B+":json", WC+"default.py:to_intermediate"])
p("C28","The native configuration is computed once",
  "After the first successful render() the native part of the output of later render() calls is the same whatever is done to the config attribute (as long as it validates): converters are not run again.",
  "every sequence of config changes and render calls", "histories", [B+":render"])
p("C29","render(files=True) extends render(files=False)",
  "The text with files is the text without files followed by the files section; with no files the two are equal.",
  "every backend state", "all states", [B+":render"])
p("C30","The archive holds one file per UCI package with its text",
  "For the OpenWrt backend, generate() puts one member etc/config/<package> per package of the rendered configuration, in order, whose contents are the text of the package's blocks (up to one line break at the end), with mode 0644, followed by the additional files.",
  "every set of packages with clean ASCII names and values", "all configurations", [W+"openwrt.py:_generate_contents", B+":generate"])
p("C31","Constructor argument contract",
  "Neither config nor native: ValueError; config neither a dict nor a JSON object string: TypeError; non-empty templates that are not a list: TypeError; otherwise configuration is loaded; when both are given config is used and native ignored.",
  "every combination of argument kinds", "all inputs", [B+":BaseBackend.__init__", B+":_load", B+":_merge_config"])
p("C32","Parsing keeps the parsed intermediate data",
  "After OpenWrt(native=text) the intermediate_data attribute is exactly what the parser produced although converters consume blocks while converting to NetJSON.",
  "every parsed document", "all documents", [B+":to_netjson"])
# ---------------------------------------------------------------- UCI text
p("C33","UCI render/parse round trip",
  "Parsing the rendered UCI text of packages whose names, types and keys are distinct words and whose values have no quotes, line breaks or runs of four spaces gives back the same packages, blocks, types, names, options and lists in order, up to sorting of keys, textual form of scalars and options with empty lists (not written); blocks of type device and bridge-vlan are excluded (the parser rewrites them). Without these conditions values are changed or forge other options.",
  "every number of packages, blocks, options and list items, every clean text",
  "text formats fail on rare combinations", [W+"templates/openwrt.jinja2", W+"renderer.py:cleanup", W+"parser.py"])
p("C34","Rendered UCI has exactly the intended lines",
  "For clean data the rendered document contains exactly one config line per block and one option/list line per non-empty option value/list item, in order.",
  "every clean intermediate data", "all data", [W+"templates/openwrt.jinja2", W+"renderer.py"])
p("C35","Empty, null and internal keys are never rendered",
  "Options whose value is '' or None, and keys starting with '.', produce no line; booleans are rendered as 1/0.",
  "every block", "all blocks", [W+"templates/openwrt.jinja2"])
p("C36","Rendered UCI is in normal form",
  "The output has no three consecutive line breaks and, when not empty, ends with exactly one line break (clean data).",
  "every clean intermediate data", "all data", [W+"renderer.py:cleanup"])
p("C37","Archive and text parse alike",
  "Parsing the generated archive gives the same intermediate data as parsing the rendered text, whatever additional files outside etc/config it holds (clean ASCII data; with other characters the archive is cut and may not be readable).",
  "every clean configuration, every list of additional members", "all configurations", [W+"parser.py:parse_tar", W+"openwrt.py:_generate_contents"])
p("C38","Parser accepts quoted, double quoted and unquoted values alike",
  "Two UCI documents that differ only in the quotes around types, names and values, in indentation and in the number of blank lines are parsed alike, and to the packages, blocks and options that they state (values without quotes and line breaks inside; unquoted values without outer blanks).",
  "every document", "all documents", [W+"parser.py:_strip_quotes"])
# ---------------------------------------------------------------- OpenWrt converters
p("C39","NTP settings survive a round trip","Converting ntp settings to UCI text and back gives the same settings. Settings that survive UCI: texts without quotes, line breaks or runs of four blanks, non-empty lists of them, integers declared as such, booleans declared as such, no empty values; an id is a word other than 'ntp'.",
  "every ntp object of such settings", "all values", [WC+"ntp.py"])
p("C40","LED settings survive a round trip","Converting the led list to UCI text and back gives the same list of the same settings, in order.",
  "every non-empty led list of settings that survive UCI (ids other than the automatic one)", "all values", [WC+"led.py"])
p("C41","General settings survive a round trip","hostname, timezone and custom general settings survive NetJSON to UCI text to NetJSON; a missing hostname comes back as OpenWRT; a ULA prefix becomes a globals section of the network package; the timezone rendered is the POSIX string of the zone and the zone name is kept beside it.",
  "every general object with a known timezone, no ula settings, and custom options that are texts (or lists of texts) that survive UCI", "all values", [WC+"general.py", W+"timezones.py"])
p("C42","Static routes survive a round trip","Routes keep destination, prefix length, next hop, device, cost and extra options through UCI text; the type follows the address family; the IPv4 netmask is the one of the prefix. IPv6 destinations lose their host bits, so the round trip is for those without.",
  "every canonical IPv4 destination (every address, every prefix length 0..32), every canonical IPv6 destination without host bits, every list of routes whose other settings survive UCI", "2^32 addresses x 33 prefixes", [WC+"routes.py"])
p("C43","Policy rules get the right family and survive a round trip","A rule whose dest (or, without dest, whose src) is IPv6 becomes rule6, any other rule; an src or dest that is not a network (for instance with host bits) makes the conversion fail with ValueError; converting to UCI text and back gives the same rules.",
  "every rule list (round trip: settings that survive UCI)", "all values", [WC+"rules.py"])
p("C44","Switch VLANs return to their switch","Converting switches with VLANs to UCI text and back gives the same switches with the same VLANs in order; only the identifier of a VLAN may change, and for one switch nothing does. (With several switches VLANs without an id come back with one; a switch without VLANs comes back without the vlan list.)",
  "every non-empty list of switches with distinct names and at least one VLAN each", "all lists", [WC+"switch.py"])
p("C45","Every WireGuard peer gets its own section","All peers of the config are converted, in order, each to its own section of the network package with all its options; the section names differ unless the first peer's interface is named like another peer's interface followed by '_' and that peer's position; converting back gives the same peers.",
  "every list of peers (round trip: interface names without '-' and settings that survive UCI)", "name collisions depend on combinations", [WC+"wireguard_peers.py", B+":to_intermediate"])
p("C46","Band / hwmode inference is correct and total","Every schema-valid radio is converted without error. If the channel check accepts it and its band and hwmode, where the schema leaves them open, do not contradict the band, the dsa output has exactly the band (2g, 5g, 6g, 60g) of the schema alternative it matches and no hwmode; the legacy output (2.4 and 5 GHz) has the given hwmode or else 11a for 5 GHz, 11b for 802.11b and 11g otherwise, and no band. An explicit band is always the one rendered.",
  "every schema-valid radio: every protocol, channel, width, band, hwmode combination and any further options", "large product space", [WC+"radios.py", "netjsonconfig/channels.py"])
p("C47","Radio settings survive a round trip","Name, protocol, channel, channel width, power, state, country, HT40+/- and the other options of a list of mac80211 radios survive NetJSON to UCI text to NetJSON, in both syntaxes; only driver, band or hwmode are added. Exceptions: 802.11b in dsa syntax and the width of 802.11ad.",
  "every list of schema-valid mac80211 radios with values that survive UCI", "large product space", [WC+"radios.py"])
p("C48","Wi-Fi interfaces and their encryption survive the round trip","A Wi-Fi interface with its mode, radio, options, networks, MAC address and encryption (every protocol, cipher, key and RADIUS setting) comes back the same from NetJSON to UCI text to NetJSON, except: a WPS object without wps_ settings (or another protocol with them), a shared WEP key beginning with s:, an accounting secret equal to the key, a cipher of a non-WPA protocol.",
  "every protocol, cipher and key", "all keys and combinations", [WC+"wireless.py"])
p("C49","Disabled or 'none' encryption never leaks keys","When encryption is empty, disabled or of protocol none the section only says encryption 'none': no key or secret is rendered.",
  "every encryption object", "all objects", [WC+"wireless.py:__intermediate_encryption"])
p("C50","Roaming options are dropped when 802.11r is off","If ieee80211r is false, no roaming option is rendered; otherwise they are kept.",
  "every wireless object", "all objects", [WC+"wireless.py:__intermediate_roaming"])
p("C51","Wi-Fi interfaces are attached to their bridges","A wifi interface without explicit networks is attached to exactly the bridges that list it as a member, in order and once each; otherwise to itself if it has addresses; otherwise to nothing.",
  "every set of bridges and members", "all topologies", [WC+"wireless.py:_track_bridged_wifi", WC+"wireless.py:__intermediate_auto_network"])
p("C52","Unknown packages pass through unchanged","Blocks of packages unknown to the schema with a config_name are rendered under that package with the given type, name (sanitised, or type and position) and all their options, in order; nothing else is; converting to UCI text and back gives the same blocks.",
  "every set of packages and block lists (round trip: settings that survive UCI, names that sanitising keeps)", "all data", [WC+"default.py"])
p("C53","Boolean and integer coercion when parsing","Options declared boolean become true iff the value is '1' (as the code compares); declared integers become the integer written; anything else is untouched; it fails exactly when an option declared integer is not a number.",
  "every item and schema", "all items", ["netjsonconfig/backends/base/converter.py:type_cast"])
p("C54","UCI section names are valid identifiers","A sanitised name has no '.' or '-', keeps its length and every other character; the names of the sections of the default converter are such names.",
  "every name, every block", "all names", [WC+"base.py:_get_uci_name", WC+"default.py"])
p("C55","One primary VLAN per port","The check of validate() after the schema refuses (ValidationError) exactly the configurations in which some bridge's VLAN filtering sets the primary VID of the same port twice; bridges are independent and other interfaces are not checked.",
  "every interface list", "all combinations", [W+"openwrt.py:validate"])
p("C56","Automatic channel needs a band","The check of validate() before the schema refuses exactly the radio lists in which some 802.11n/ax radio has channel 0 and neither band nor hwmode; a radio without protocol raises KeyError there.",
  "every radio list", "all lists", [W+"openwrt.py:_validate_radios"])
# ---------------------------------------------------------------- VPN backends
p("C57","OpenVPN text round trip","Parsing the rendered OpenVPN text gives the same options back.",
  "every clean OpenVPN option set", "all option sets", ["netjsonconfig/backends/openvpn/parser.py","netjsonconfig/backends/openvpn/templates/openvpn.jinja2","netjsonconfig/backends/openvpn/converters.py"])
p("C58","OpenVPN data ciphers round trip","The data_ciphers list with optional markers survives rendering and parsing.",
  "every cipher list", "all lists", ["netjsonconfig/backends/openvpn/converters.py"])
p("C59","OpenVPN falsy options are omitted","Options that are false, 0 or '' are not rendered, except script_security and remote; server_bridge '' is rendered as a bare flag; status_version only with status.",
  "every option set", "all sets", ["netjsonconfig/backends/openvpn/converters.py:__intermediate_vpn"])
p("C60","Inline tls_auth keys become protected files","A tls_auth value that is key material is moved to a file of mode 0600 next to the CA and replaced by 'path direction' with direction 0 on servers and 1 on clients; a 'path direction' value is left alone.",
  "every option set", "all sets", ["netjsonconfig/backends/openvpn/converters.py:__add_tls_auth_key"])
p("C61","OpenVPN auto client matches the server","auto_client returns p2p mode, tcp-client iff the server is tcp-server, tls_client iff the server has tls_server, the server's port (default 1195), and copies the shared options.",
  "every server dictionary", "all dictionaries", ["netjsonconfig/backends/openvpn/openvpn.py:auto_client"])
p("C62","WireGuard output holds every peer and option once","Every configured option is renamed to its WireGuard name, empty ones are omitted, and every peer appears with its keys.",
  "every tunnel", "all tunnels", ["netjsonconfig/backends/wireguard/converters.py"])
p("C63","WireGuard / VXLAN auto client","wireguard_auto_client and vxlan_wireguard_auto_client produce interface and peer entries consistent with the server arguments.",
  "every argument combination", "all arguments", [W+"openwrt.py:wireguard_auto_client", W+"openwrt.py:vxlan_wireguard_auto_client"])
p("C64","ZeroTier: device map, joined networks, sections and their way back",
  "Converting a configuration with ZeroTier entries leaves in its files exactly one devicemap per configured directory (mode 0644) with a line id=ifname for every network of the entries using it and the contents of user files at that path; the other files and keys are unchanged. In the UCI output every entry is one zerotier section joining all ids in order, followed by one network section per network with all its options. Through UCI text and back all options of an entry return, every network twice, with names made from the ids. The automatic client puts the client options in every network.",
  "every ZeroTier entry list, files list and network", "all lists", [WC+"zerotier.py", "netjsonconfig/backends/zerotier/zerotier.py:auto_client"])
p("C65","OpenWisp: radios, text, scripts and archive",
  "validate() gives every radio an explicit disabled (false where missing) and changes nothing else. The text holds exactly the quoted lines of the data and is the same UCI configuration as that of the OpenWrt backend. generate() writes one uci/NAME.conf per package, the configured files, and install.sh, uninstall.sh, the VPN scripts and tc_script.sh with mode 755; the scripts become part of the configuration, once. Generating again gives the same archive if no two files share a path. Such an archive cannot be parsed back.",
  "every configuration, intermediate data and script text", "all configurations and histories of calls", ["netjsonconfig/backends/openwisp/openwisp.py:OpenWisp", "netjsonconfig/backends/openwisp/templates/openwrt.jinja2"])
p("C66","Valid configurations render without internal errors",
  "Let an OpenWrt configuration be accepted by validate(), and be tame: the ids and names of its sections are text, route destinations are networks, OpenVPN servers have no remote, WireGuard interfaces have addresses, modem-manager and VXLAN interfaces have none, IPv4 masks are at most 32, wireless settings are on wireless interfaces and VLAN filtering on bridges and with VLAN numbers, names of bridges have no dot, monitors have no encryption, and addresses and encryptions have no options ipaddr, ip6addr, .name, network. Then render() gives text, and generate() an archive, or they raise ValidationError, never KeyError, TypeError, ValueError or AttributeError. Each of these conditions is needed: for each there is a configuration the schema accepts that makes render() raise another error.",
  "every valid tame configuration, with and without DSA and files", "the schema accepts infinitely many shapes; nothing ties the schema to what the converters assume", ["netjsonconfig/backends/openwrt/schema.py", "netjsonconfig/schema.py", "netjsonconfig/backends/base/backend.py:validate", WC])
p("C67","Interfaces: one UCI section per address group",
  "The OpenWrt output has for every configured interface, in order: for WireGuard one logical section; without addresses one with proto none (none at all for a wireless interface); else one for all its static addresses together and one for each DHCP address. The sections are named after the network (or sanitised interface) name, then NAME_2, NAME_3...; each has the protocol, exactly the configured addresses with their masks, the gateway, the DNS servers and search domains (static sections only), and every other option unchanged. Sections of one interface have different names; two sections of equal names (of any interfaces) are merged into one.",
  "every interface list", "all interface and address lists", [WC+"interfaces.py:to_intermediate_loop", WC+"interfaces.py:__intermediate_addresses", WC+"interfaces.py:__set_dns"])
p("C74","Bridge VLAN filtering: every VLAN has its section and its interface",
  "For a bridge with vlan_filtering every configured VLAN gives exactly one bridge-vlan section with its id, its device and all its ports (with tag and primary marks), and one logical interface on DEVICE.ID with proto none (an interface configured on that device is not declared a second time as a device).",
  "every bridge and VLAN list", "all lists of VLANs and ports", [WC+"interfaces.py:__intermediate_vlan", WC+"interfaces.py:_add_bridge_vlan"])
p("C68","The command line program passes its arguments on and reports faithfully",
  "--args k=v pairs become keyword arguments (the last value of a key counts; True/1 and False/0 become booleans); an argument without exactly one '=' ends the program with status 3 before anything is converted. `render` prints exactly what render() of the object built from configuration, templates and environment gives; validate prints nothing and ends normally exactly when the configuration is valid, with status 4 exactly when validation fails; status 1 is used exactly for missing or unreadable inputs.",
  "every argument list, configuration, template list, environment and backend class", "all strings and configurations", ["bin/netjsonconfig:parse_method_arguments", "bin/netjsonconfig:_load", "bin/netjsonconfig:print_output"])

p("C69","What a failed conversion leaves behind",
  "When a converter raises an exception during the first render(), the object keeps the intermediate data of the converters that ran before it, and the next render() on it succeeds silently with that partial output.",
  "every class, configuration, and point of failure", "crash points", [B+":render", B+":to_intermediate"])
p("C72","One archive member per VPN, and the archive reads like the text",
  "generate() of the OpenVPN and WireGuard backends writes exactly one file for each configured VPN, in order, named after it and holding its lines, followed by the additional files; parsing such an OpenVPN archive gives what parsing the rendered text gives, whatever other files it holds.",
  "every list of VPNs and further archive members", "all lists of VPNs, names and texts", ["netjsonconfig/backends/base/backend.py:BaseVpnBackend._generate_contents", "netjsonconfig/backends/openvpn/parser.py:parse_tar"])
p("C73","Interfaces survive UCI",
  "Ethernet, loopback and bridge interfaces (with no address, one DHCP address, or static addresses; MTU, MAC, autostart, disabled, bridge members and bridge options, other text options) converted to OpenWrt UCI text, parsed and converted back are the interfaces they were, in their order; the DNS servers and search domains come back once for each interface that uses them; nothing else comes back.",
  "every list of interfaces that do not get into each other's way (before and after the switch to DSA)", "all lists of interfaces, options and addresses", [WC+"interfaces.py:Interfaces"])
p("C71","A whole configuration survives OpenWrt",
  "A configuration with general settings, NTP, LEDs, wired and wireless interfaces, DNS, routes, policy rules, switches, radios, OpenVPN, WireGuard peers and custom packages, rendered by the OpenWrt backend and given back as native text, is read as the same configuration: every section comes back with the same objects in the same order (the wireless interfaces after the others), wireless members of bridges are recognised, and nothing is added or lost, whatever sections are combined. The condition across sections is that no two sections of a UCI package have the same name.",
  "every combination of sections, before and after the switch to DSA", "all configurations made of sections that survive on their own", ["netjsonconfig/backends/openwrt/openwrt.py:OpenWrt", B+":to_intermediate", B+":to_netjson"])
p("C75","JSON texts and dictionaries are interchangeable",
  "Loading the JSON text of a configuration gives the same configuration, whatever characters, nesting and order of keys it has; the document that json() returns can be given to the constructor as text and gives the same configuration; and it makes no difference whether the configuration and the templates are given as dictionaries or as JSON texts. The JSON documents of the ZeroTier backend hold the same data, with sorted keys.",
  "every data of texts, integers, booleans, null, lists and dictionaries of any depth", "all data and characters", [B+":json", B+":_load", "netjsonconfig/backends/zerotier/templates/zerotier.jinja2"])
p("C77","Time zones",
  "Every time zone that a valid configuration can name is written by the OpenWrt backend as its POSIX string, with the name of the zone beside it, and comes back as the same zone; a zone that is not in the table is refused. A section without a zone name is read as the last zone of the table with the same POSIX string, so that writing it again does not change the clock; a POSIX string that is not in the table is refused.",
  "every zone and every POSIX string of the table, and every one outside; every other setting", "all zones, combined with all settings", [WC+"general.py:General", "netjsonconfig/backends/openwrt/timezones.py:timezones", "netjsonconfig/backends/openwrt/timezones.py:timezones_reversed"])
p("C78","Interfaces: every option is written in its place, and nowhere else",
  "For every configured interface of every type, in the older and the newer (DSA) syntax, each written section (device, bridge VLAN, logical interface) has exactly the options that belong there, each with the configured value: MAC address as macaddr, autostart as auto, disabled negated as enabled, port as listen_port, vni as vid and so on; link layer, STP and IGMP options go to the device only (which is written exactly when the interface is a bridge or VLAN or has such options); VLAN devices are called NAME.VID, bridges br-NAME; only the first section of a bridge declares it, lists its members and has the gateway; nothing else of the configuration appears.",
  "every interface list (bridge members given as lists), DSA on or off", "all option names and values, types, lists of addresses and VLANs and their order", [WC+"interfaces.py:__intermediate_interface", WC+"interfaces.py:__intermediate_device", WC+"interfaces.py:__intermediate_bridge", WC+"interfaces.py:_add_l2_options"])
p("C76","ZeroTier networks survive the ZeroTier backend",
  "Networks rendered by the ZeroTier backend and given back as native text come back the same, in order, without their client options; generate() writes one file for each network, named after its identifier and holding its options as a JSON document, and parsing the archive gives what parsing the text gives.",
  "every non-empty list of networks whose texts hold no comment marks", "all networks, options and texts", ["netjsonconfig/backends/zerotier/converters.py:ZeroTier", "netjsonconfig/backends/zerotier/parser.py:ZeroTierParser", "netjsonconfig/backends/zerotier/renderer.py:ZeroTierRenderer"])

p("C79","OpenVPN settings of OpenWrt survive UCI",
  "The VPNs of an OpenWrt configuration, converted to UCI text and back, are the same list of VPNs in the same order: the name (dots and dashes as underscores), whether it is disabled, and every option that is written with the value it was given - servers with host, port and protocol (auto is the default and is left out), data ciphers with their optional marks, control channel ciphers, empty server_bridge. Empty texts, a fragment size of zero, and status_version without status are not written; nothing else is lost and nothing is added.",
  "every non-empty list of VPNs whose options have the types of the schema and texts that UCI can hold", "all options, values, servers and ciphers", [WC+"openvpn.py:OpenVpn", "netjsonconfig/backends/openvpn/converters.py:OpenVpn", "netjsonconfig/backends/openwrt/parser.py:OpenWrtParser"])
p("C80","Validation accepts exactly what the schema says",
  "validate() accepts a configuration exactly when the JSON schema of the backend accepts it, read as Draft 4 says, keyword by keyword: types (true is not a number), enumerations, patterns, formats (IPv4, IPv6 and network addresses, host names), bounds, lengths, unique items, properties, required and additional properties, allOf, anyOf, exactly one of oneOf, not, and references in place of the schema they lead to. Otherwise it raises ValidationError. The schemas of all six backends use nothing else, and the verdict does not depend on how deep they are nested.",
  "every configuration, of any size and depth, for each of the six schemas", "all configurations and all the combinations of keywords the schemas use", [B+":validate", B+":_cidr_notation", B+":_is_hostname", "netjsonconfig/schema.py:schema", "netjsonconfig/backends/openwrt/schema.py:schema", "netjsonconfig/backends/openvpn/schema.py:schema", "netjsonconfig/backends/wireguard/schema.py:schema", "netjsonconfig/backends/vxlan/schema.py:schema", "netjsonconfig/backends/zerotier/schema.py:schema", "netjsonconfig/backends/openwisp/schema.py:schema"])
p("C81","Valid VPN configurations are rendered and archived",
  "Let a configuration be accepted by validate() of the backend OpenVPN, WireGuard, VXLAN over WireGuard or ZeroTier. Then render(), with and without files, returns text and generate() returns an archive, with no exception at all, in every case but two, for which the schemas accept configurations that make render() raise KeyError: OpenVPN servers that have a remote, and WireGuard tunnels (of both backends) without address.",
  "every configuration accepted by the schema, for each of the four backends", "the schemas accept infinitely many shapes; nothing ties the schemas to what the converters assume", ["netjsonconfig/backends/openvpn/schema.py:schema", "netjsonconfig/backends/openvpn/converters.py:OpenVpn", "netjsonconfig/backends/wireguard/schema.py:schema", "netjsonconfig/backends/wireguard/converters.py:Wireguard", "netjsonconfig/backends/vxlan/schema.py:schema", "netjsonconfig/backends/zerotier/schema.py:schema", "netjsonconfig/backends/zerotier/converters.py:ZeroTier", B+":render", B+":generate"])
p("C70","Archives of the OpenWrt backend stay below the directory they are extracted in",
  "Every member of the archive made by the OpenWrt backend is either the file of a package in etc/config - system, network, wireless, openvpn, zerotier, or a list under a key that is not a NetJSON section - or has a path the configuration asks for: that of one of its files, of a TLS key given as text (next to the certificate of the authority), or of a ZeroTier map. If the names of other packages are proper file names and the paths of TLS keys and maps are valid, extraction in any directory writes below it only. validate() checks neither of these: configurations it accepts give archives that write outside.",
  "every configuration whose texts (other than files and TLS keys) hold no line break", "all configurations, names and paths", ["netjsonconfig/backends/openwrt/openwrt.py:_generate_contents", B+":_process_files", "netjsonconfig/backends/openvpn/converters.py:__add_tls_auth_key", "netjsonconfig/backends/openwrt/converters/zerotier.py:__get_zt_ifname_files", WC+"default.py:Default"])
p("C82","No value forges lines or files of an OpenWrt configuration",
  "When no text of a configuration has a line break (those of files, and TLS keys given as text, may have), the rendered text has exactly the lines of the packages, sections and options of the converted configuration, each without its runs of four blanks, and the archive has exactly one file per package, with the lines of that package, followed by the additional files: whatever quotes, keywords or other characters the values hold, none adds a line, a section, a package or a file. Without the hypothesis it is false: validate() accepts values with line breaks, and these add options, packages and files.",
  "every configuration, of any size and depth, before and after the switch to DSA", "all texts in all places of a configuration", ["netjsonconfig/backends/openwrt/renderer.py:OpenWrtRenderer", "netjsonconfig/backends/openwrt/openwrt.py:_generate_contents", WC+"base.py:OpenWrtConverter", B+":render"])
p("C83","The order of the keys of an OpenWrt configuration means nothing",
  "Two configurations that are the same JSON data - objects with the same keys and the same values, in any order of keys, at any depth; lists in the same order - are accepted by validate() or refused with the same error together, are rendered to the same text, and give the same members of the archive in the same order; or the conversion raises an exception for both. This holds when objects are found only where the schema defines them (blocks, addresses, wireless and encryption, VLANs and ports, switch VLANs, servers and ciphers, networks): an option with an object as its value, which the schema allows, is written as Python writes it, order included.",
  "every pair of configurations equal as JSON data, valid or not, in the older and the newer (DSA) syntax", "all orders of keys in all objects of all configurations", [B+":validate", B+":render", B+":generate", "netjsonconfig/utils.py:sorted_dict", WC+"default.py:Default", WC+"interfaces.py:Interfaces", WC+"openvpn.py:OpenVpn"])
p("C84","Templates for different sections can be given in any order",
  "If templates that are moved past each other have no key of the top level in common, the order they are given in does not matter: for every configuration of the device (which may override any of them), and every context, the constructor fails in both orders, or gives objects with the same value under every key; for the OpenWrt backend, these are accepted or refused together by validate(), are rendered to the same text and give the same archive (when objects are where the schema defines them, as in C83).",
  "every list of templates, every reordering that moves only disjoint templates past each other, every configuration and context", "all lists of templates, all orders", [B+":_merge_config", "netjsonconfig/utils.py:merge_config", "netjsonconfig/utils.py:merge_list", "netjsonconfig/utils.py:evaluate_vars", B+":render", B+":generate"])
p("C85","Each file of an OpenWrt archive depends on few sections",
  "The file of a package in the archive of the OpenWrt backend depends on the sections of that package only: system on general, ntp and led; network on interfaces, dns_servers, dns_search, routes, ip_rules, switch, wireguard_peers and general (ULA prefix); wireless on radios and the sections of network; openvpn and zerotier on the section of the same name; every package also on the list under its own name, and other packages on nothing else. Two configurations with the same values in these sections, however different elsewhere, have the same blocks of that package, and archives with the same text (up to a final line break) in its file, or without this file. The dependence of wireless on sections like routes is real: blocks of the same name are merged, and a route with the name of the device of a bridge turns it into a route.",
  "every package, every pair of configurations that agree on its sections, in the older and newer syntax", "all changes of all other sections", ["netjsonconfig/backends/openwrt/openwrt.py:_generate_contents", B+":to_intermediate", WC+"interfaces.py:Interfaces", WC+"wireless.py:_track_bridged_wifi", WC+"default.py:Default"])
p("C86","The scripts of an OpenWisp archive do what the configuration says",
"For a configuration whose names, addresses and hostname contain no line break, generate() of the OpenWisp backend adds scripts of which, read line by line: install.sh sets the configured hostname once, creates a tap device for every VPN of layer 2, brings up every bridge and every radio, in the order of the configuration and nothing else, starts OpenVPN exactly when there are such VPNs and cron exactly when there are files for it, and closes every loop; uninstall.sh removes exactly the tap devices install.sh creates and stops cron exactly when install.sh starts it; start() of tc_script.sh limits output and input of exactly the interfaces with a bandwidth other than 0, to the configured rates, and stop() frees exactly what start() limits. (Names are not quoted: see the limits.)",
"all configurations of any size, with names without line breaks", "the scripts are made by loops over lists of any length with names from the user",
["netjsonconfig/backends/openwisp/openwisp.py:_get_install_context", "netjsonconfig/backends/openwisp/openwisp.py:_add_tc_script", "netjsonconfig/backends/openwisp/templates/install.sh", "netjsonconfig/backends/openwisp/templates/uninstall.sh", "netjsonconfig/backends/openwisp/templates/tc_script.sh"])
p("C87","A valid OpenWisp configuration is rendered and archived without an internal error",
"For every configuration that validate() of the OpenWisp backend (with its own schema) accepts, and that is tame as in C66 (clauses about what the schema leaves open), render() returns a text or raises ValidationError, and generate() - packages, install, uninstall, VPN and traffic control scripts, files - returns an archive or raises ValidationError; no KeyError, TypeError, ValueError, AttributeError or other error. One exception comes before validation: radios that are no objects make validate() itself raise AttributeError.",
"every configuration, valid for the schema of OpenWisp and tame, of any size", "all configurations the schema accepts",
["netjsonconfig/backends/openwisp/openwisp.py:_generate_contents", "netjsonconfig/backends/openwisp/openwisp.py:_sanitize_radios", "netjsonconfig/backends/openwisp/openwisp.py:_get_install_context", "netjsonconfig/backends/openwisp/schema.py:schema", B+":render", B+":generate"])
p("C88","An OpenVPN file says what the configuration says",
"render() of the OpenVPN backend returns, for every VPN of the configuration in their order, a line with its name, an empty line, and the lines its options say, in alphabetical order of the options: nothing for options that are false, 0 or empty (script_security and remote excepted, status_version only with status); the name of the option with dashes, alone for flags, before the value otherwise; one line for every element of a list and for every server (host, port, protocol unless auto); one line for all data ciphers, optional ones after a question mark; for a TLS key given as text a reference to a file next to the certificate of the authority, with direction 0 for servers and 1 for others, which is added to the files with mode 0600. generate() puts the lines of each VPN into a file of mode 0644 named after it, followed by the files; for a configuration the schema accepts the files stay below the directory the archive is unpacked in, when the paths of the TLS keys do (they are not validated, and neither are the names of WireGuard tunnels: see the limits).",
"all configurations with any number of VPNs and options, of lines without line break and four spaces in a row; for the archive: ASCII, no VPN without options", "every combination of options and values of any size",
["netjsonconfig/backends/openvpn/converters.py:OpenVpn", "netjsonconfig/backends/openvpn/templates/openvpn.jinja2", B+":BaseVpnBackend._generate_contents", "netjsonconfig/backends/openvpn/openvpn.py:OpenVpn"])
p("C89","The order of the keys of a VPN configuration means nothing",
"Two configurations of the OpenVPN, WireGuard, VXLAN or ZeroTier backend that are the same JSON data - objects with the same keys and the same values, in any order of keys, at any depth; lists in the same order - are accepted by validate() or refused with the same error together, are rendered to the same text, and give the same members of the archive in the same order; or both raise. This holds when objects are found only where the schema defines them: servers and data ciphers of OpenVPN, peers of WireGuard, and, because ZeroTier sorts at every depth, anywhere in a ZeroTier controller but in its identifier.",
"every pair of configurations equal as JSON data, valid or not, for the four backends", "all orders of keys in all objects of all configurations",
[B+":validate", B+":render", B+":generate", "netjsonconfig/backends/openvpn/converters.py:OpenVpn", "netjsonconfig/backends/wireguard/converters.py:Wireguard", "netjsonconfig/backends/zerotier/converters.py:ZeroTier", "netjsonconfig/backends/zerotier/templates/zerotier.jinja2"])
p("C90","Writing the archive to disk",
  "write(name, path) leaves in the file PATH/NAME.tar.gz, whatever was there before, the archive that generate() returns, and touches no other file; it makes no difference whether the path ends with a slash. If generate() raises, write() raises the same and no file is touched. Interrupted at any moment, the other files are as they were, and the file of the archive is as it was, empty, or complete.",
  "every object, name, path, state of the file system and moment of interruption", "all crash points and file systems", [B+":write"])
p("C91","What an object answers does not depend on what it was asked before",
  "Take an object made from a configuration that can be rendered. After any history of validate(), json(), render(files) and generate() calls, in any order and number, validate(), render(files) and generate() return what they return on a fresh object made from the same configuration: the same text, the same members of the archive. For OpenWrt and OpenVPN this needs the files made by the converters (inline tls_auth keys, device maps of ZeroTier) to have paths that validate() accepts; WireGuard, VXLAN and ZeroTier objects need nothing. For OpenWisp, whose generate() adds scripts to the files, the paths of all files have to be distinct and accepted, and render(True) is the same until generate() is called. json() always succeeds and shows the sections of the schema as given; only files and sections outside the schema can differ once the object was rendered. An object whose configuration is not valid answers every call of every history with the same exception and is never changed.",
  "every configuration and every finite history of calls, for the OpenWrt, OpenVPN, WireGuard, VXLAN, ZeroTier and OpenWisp backends with their schemas", "all histories of calls",
  [B+":validate", B+":render", B+":generate", B+":json", B+":to_intermediate", B+":_deduplicate_files", "netjsonconfig/backends/openvpn/converters.py:OpenVpn", WC+"zerotier.py:ZeroTier", WC+"default.py:Default", "netjsonconfig/backends/openwisp/openwisp.py:OpenWisp.validate", "netjsonconfig/backends/openwisp/openwisp.py:OpenWisp._generate_contents"])
p("C92","auto_client of a valid OpenVPN server gives a valid client",
  "Take a server of mode \"server\" that validate() of the OpenVPN backend accepts, a host that is a host name of 1 to 63 characters, and any of the three pairs of path and contents (authority, certificate, key), each of texts, with a path that a file may have and without white space, the paths distinct. Then auto_client(host, server, ...) returns a configuration, it does not raise; validate() of the OpenVPN backend and of the OpenWrt backend both accept it, without a change by hand; and the OpenVPN backend renders it and makes an archive of it.",
  "every server with any combination of options that the schema accepts, every host and all files", "every combination of options and values; the schema's conditions must follow from those of the server",
  ["netjsonconfig/backends/openvpn/openvpn.py:OpenVpn.auto_client", "netjsonconfig/backends/openvpn/schema.py:schema", "netjsonconfig/backends/openwrt/schema.py:schema", B+":validate", B+":render", B+":generate"])
p("C93","OpenWrt accepts the WireGuard, VXLAN and ZeroTier clients it makes",
  "For every WireGuard tunnel that validate() of the WireGuard (or VXLAN) backend accepts, and all arguments of the kinds the schemas allow - public key and network of the server given, ports from 1 to 65535, keys of at most 44 characters without white space, an address of at least 7 characters or none, for VXLAN a VNI that is a text or a number from 1 to 16777216 and a name of 2 to 15 characters - wireguard_auto_client() and vxlan_wireguard_auto_client() return, and validate() of the OpenWrt backend accepts what they return. For every list of ZeroTier networks with distinct identifiers of 16 characters, interface names of 1 to 10 characters and options that are truth values, validate() accepts what zerotier_auto_client() returns.",
  "every valid tunnel, all arguments, lists of networks of any length", "every combination of arguments",
  ["netjsonconfig/backends/openwrt/openwrt.py:OpenWrt.wireguard_auto_client", "netjsonconfig/backends/openwrt/openwrt.py:OpenWrt.vxlan_wireguard_auto_client", "netjsonconfig/backends/openwrt/openwrt.py:OpenWrt.zerotier_auto_client", "netjsonconfig/backends/wireguard/wireguard.py:Wireguard.auto_client", "netjsonconfig/backends/vxlan/vxlan_wireguard.py:VxlanWireguard.auto_client", "netjsonconfig/backends/zerotier/zerotier.py:ZeroTier.auto_client", "netjsonconfig/backends/openwrt/schema.py:schema", B+":validate"])
p("C94","The text of a ValidationError names every alternative",
  "validate() refuses a configuration if and only if the JSON Schema library finds an error, and the first one becomes the details of the exception. str(exception) never fails: it is the name of the exception, the error, and one block \"Against schema ...\" for every error that is shown, and for no other, in the order of the alternatives, nested ones after the one they belong to. Wherever a part of the configuration meets none of the alternatives of the schema (oneOf, anyOf), every alternative is named with an error; the first alternative with its own first reason; and if each alternative fails for exactly one reason, each is named with its own reason and none is missing. (Otherwise alternatives are named with the reasons of others.)",
  "every schema made of the keywords of the backends, every configuration, errors nested to any depth", "all schemas, documents and trees of errors",
  ["netjsonconfig/exceptions.py:_list_errors", "netjsonconfig/exceptions.py:NetJsonConfigException.__str__", "netjsonconfig/exceptions.py:ValidationError", "netjsonconfig/exceptions.py:ParseError", B+":validate"])
p("C95","Other members of a configuration mean nothing; json() can be loaded back",
  "Members of a configuration under keys that the schema of the backend does not define (metadata such as \"type\", an owner, a revision) have no effect: two configurations with the same other members, in the same order, get the same answer, or the same exception, from validate(), render(), generate() and json() (which shows the members), after every history of such calls. For the OpenWrt and OpenWisp backends this is about values that are not lists; a list under such a key is a UCI package. Consequently the text that json() returns, loaded in place of the configuration, makes an object with the same answers, for every backend (for OpenWrt: if there is no package called \"type\").",
  "every backend, every pair of configurations with the same members of the schema, valid or not, every history; every key and value outside of the schema", "all extra keys, values and histories",
  [B+":json", B+":validate", B+":render", B+":generate", WC+"default.py:Default.to_intermediate", "netjsonconfig/backends/openwrt/schema.py:schema"])
p("C96","The command line: json, generate and write, and its output given back",
  "The netjsonconfig program gives what the library gives, for all five methods: --method generate prints the archive of the configuration loaded with its templates and environment; --method json prints the text of json() (with validate=0: also of an invalid configuration); --method write name=N path=P prints nothing and leaves exactly the archive in the file named by P and N and all other files as they were; no other method touches a file. An invalid configuration ends with status 4, a wrong argument with status 5. What --method json printed, given to the program as its configuration, directly or in a file, without the templates, makes every method with every argument end as with the original configuration and templates: the same output, files and status, if no variable of the environment occurs in what was printed.",
  "every configuration and list of templates, in texts or files, every environment, method and arguments, valid or not", "all inputs and environments of the program",
  ["bin/netjsonconfig:print_output", "bin/netjsonconfig:parse_method_arguments", B+":json", B+":write", B+":generate"])
p("C97","Variables replaced by the object or beforehand",
  "Variables are replaced after templates are merged. An object made of templates and a configuration with variables is the same, or the constructor raises the same exception, as the object made of the texts in which the caller has replaced the variables beforehand, if no two different texts inside of lists become equal by the replacement; without texts inside of lists this holds for all values. (Otherwise elements of lists that get the same name are not merged.)",
  "every backend class, any number of templates, every configuration and context whose variables can be replaced", "all data, nested to any depth, and all values of variables",
  [B+":_merge_config", B+":_evaluate_vars", "netjsonconfig/utils.py:merge_config", "netjsonconfig/utils.py:merge_list", "netjsonconfig/utils.py:evaluate_vars"])
p("C98","Files of the configuration and files of templates",
  "When several templates and the configuration define a file with the same path, the one in the archive is the last one of the last of them that has the path, and it is the only one with this path, if no earlier template has a file that is equal to it. The files of an object are those of its templates and configuration, one after the other, without those that are equal to an earlier one. (A file that equals one of an earlier template is skipped, so that a configuration does not override a template that changed the file in between.)",
  "every backend class, any number of templates with any files, every path", "all templates, files and paths",
  [B+":_deduplicate_files", B+":_merge_config", "netjsonconfig/utils.py:merge_list", B+":generate", B+":_process_files"])
p("C99","The wireless package says what the radios and Wi-Fi interfaces say",
  "For every valid configuration, the wireless package that the OpenWrt backend generates has exactly one section for each radio, in their order, followed by exactly one for each interface with a wireless object, in their order. The options of a section are exactly those determined by its object: for a radio its options with channel, mode and band derived as documented; for an interface mode, device, interface name, the options of its encryption, the networks (the bridges it is a member of) and the remaining ones, without roaming options when roaming is off. The names of the sections must differ, as otherwise two of them become one.",
  "every valid configuration with any number of radios and interfaces, both syntaxes (DSA or not)", "all configurations",
  [WC+"radios.py:Radios", WC+"wireless.py:Wireless", "netjsonconfig/backends/openwrt/schema.py:schema", B+":to_intermediate"])
p("C100","The network package says what routes, rules, switches, peers and interfaces say",
  "For every valid configuration without a network package of its own, the network package that the OpenWrt backend generates is made of one section for the ULA prefix (if there is one), the sections of the interfaces, one for each route, one for each policy rule, one for each switch followed by one for each of its VLANs, and one for each WireGuard peer, in this order and in the order of the lists. Each section has exactly the options determined by its object: a route the target, netmask, gateway, interface and metric of the family of its destination; a rule the type of its family; unnamed ones are numbered. No object is lost and none is added, as long as the names of the sections differ.",
  "every valid configuration with any number of objects, both syntaxes (DSA or not)", "all configurations",
  [WC+"general.py", WC+"interfaces.py:Interfaces", WC+"routes.py:Routes", WC+"rules.py:Rules", WC+"switch.py:Switch", WC+"wireguard_peers.py:WireguardPeers", B+":to_intermediate"])
p("C101","The system package says what the general settings, NTP and the LEDs say",
  "For every valid configuration without a system package of its own, the system package that the OpenWrt backend generates is made of one section for the general settings (if there are any besides the ULA prefix), one for the NTP settings (if there are any) and one for each LED, in this order. The section of the general settings has their options and a host name, which is OpenWRT when none is given; the time zone is given by its name and by its POSIX text. The sections of NTP and the LEDs have exactly the options of their objects; a LED without identifier is called led_ and its name in lower case. No object is lost and none is added, as long as the names of the sections differ.",
  "every valid configuration with any general settings, any NTP settings and any number of LEDs", "all configurations",
  [WC+"general.py:General", WC+"ntp.py:Ntp", WC+"led.py:Led", "netjsonconfig/backends/openwrt/timezones.py:timezones", B+":to_intermediate"])
p("C102","The OpenVPN package says what the VPNs say",
  "For every valid configuration, the openvpn package that the OpenWrt backend generates has exactly one section for each VPN, in their order. Its options are exactly those determined by the object: it is enabled unless it is disabled, remote servers and data ciphers are written as texts, TLS ciphers become a list, a TLS key becomes a reference to its file, options that have no effect (an empty text, a status version without status, a fragment of 0) are left out, and all the others are the object's own.",
  "every valid configuration with any number of OpenVPN servers and clients", "all configurations",
  [WC+"openvpn.py:OpenVpn", "netjsonconfig/backends/openvpn/converters.py:OpenVpn", "netjsonconfig/backends/openwrt/schema.py:schema", B+":to_intermediate"])
p("C103","The ZeroTier package says what the VPNs and their networks say",
  "For every valid configuration, the zerotier package that the OpenWrt backend generates has for each VPN, in their order, one section followed by one for each of its networks, in their order. The section of a VPN lists the identifiers of its networks to join, is enabled unless the VPN is disabled, has the paths of the configuration and of the local settings (with their defaults) and its other options; the section of a network is called like its interface and has exactly its options. Nothing is lost or added.",
  "every valid configuration with any number of ZeroTier VPNs with any number of networks", "all configurations",
  [WC+"zerotier.py:ZeroTier", "netjsonconfig/backends/zerotier/converters.py:ZeroTier", "netjsonconfig/backends/openwrt/schema.py:schema", B+":to_intermediate"])
p("C104","Additional packages: which there are and what they say",
  "Besides system, network, wireless, openvpn and zerotier, the packages that the OpenWrt backend generates for a valid configuration are exactly those the configuration lists under a key that the backend does not define. Such a package has exactly one section for each object of the list with a config_name, in their order: its type is the config_name, its name the config_value, or the type and its number when there is none; its options are the other members of the object. Keys the backend defines and values that are no lists make no package.",
  "every valid configuration, every name of a package and every list of objects and other values", "all configurations and keys",
  [WC+"default.py:Default", B+":to_intermediate", "netjsonconfig/backends/openwrt/schema.py:schema"])
p("C105","Packages listed by the configuration itself extend those of the converters",
  "A list that a valid configuration has under network, system or wireless adds sections to the package of that name: the package is made of the sections that C100, C101 and C99 describe, whatever the configuration lists, followed by one section for each object of the list with a config_name, in their order, with exactly its options. Nothing is lost and none of the other sections changes, as long as the names of the sections differ.",
  "every valid configuration, with and without packages of its own", "all configurations and lists",
  [WC+"default.py:Default", B+":to_intermediate", "netjsonconfig/utils.py:merge_list"])

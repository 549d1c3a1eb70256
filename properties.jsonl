{"id": "C01", "title": "Configuration overrides template, key by key", "statement": "For merge_config(template, config): a key present only in the template keeps its value, a key present only in the config gets the config's value, and a key present in both gets the config's value unless both values are dicts (merged recursively) or both are lists (merged as lists). No other key appears.", "quantifier": "every pair of dictionaries, every key, every nesting depth, every list of identifiers", "why_tests_cant": "the rule must hold for every shape and depth of two independent trees", "anchors": ["netjsonconfig/utils.py:merge_config"]}
{"id": "C02", "title": "A scalar set in the config is visible at the same path after merging", "statement": "Whatever the templates contain, if a path of dict keys leads to a scalar (string, number, bool, null) in the main config, and the merge succeeds, the same path leads to the same scalar in the merged configuration; and a path of the template which the config does not touch keeps its value.", "quantifier": "every template, config and path of any length", "why_tests_cant": "paths and trees are unbounded", "anchors": ["netjsonconfig/utils.py:merge_config", "netjsonconfig/backends/base/backend.py:_merge_config"]}
{"id": "C03", "title": "Dict/list conflicts are rejected, and nothing else is", "statement": "merge_config raises the library ValidationError exactly when, at some key reachable in both inputs, one side is a dict and the other a list; it raises it for no other reason.", "quantifier": "every pair of dictionaries (identifiers of list elements hashable)", "why_tests_cant": "requires knowing that no other input shape raises or is silently accepted", "anchors": ["netjsonconfig/utils.py:merge_config"]}
{"id": "C04", "title": "Empty template or empty config is neutral", "statement": "Merging {} on top of a configuration, or a configuration on top of {}, gives that configuration back, including the order of the keys.", "quantifier": "every dictionary", "why_tests_cant": "unbounded input", "anchors": ["netjsonconfig/utils.py:merge_config"]}
{"id": "C05", "title": "Applying the same template twice changes nothing", "statement": "merge(merge(t, c), c) == merge(t, c) whenever no list of c contains two elements with the same identifier or the same object twice (identifiers being scalars); with a repeated identifier it may differ.", "quantifier": "every template t and config c for which the merge succeeds", "why_tests_cant": "depends on every list shape, identifiers and duplicates", "anchors": ["netjsonconfig/utils.py:merge_config", "netjsonconfig/utils.py:merge_list"]}
{"id": "C06", "title": "List merge: order and identity", "statement": "merge_list(l1, l2, identifiers) contains first the elements of l1 in their order (those sharing an identifier with an element of l2 replaced by the merge of the two) and then the elements of l2 that match nothing in l1, in their order.", "quantifier": "every pair of lists, every identifier list", "why_tests_cant": "needs all element orders and all identifier coincidences", "anchors": ["netjsonconfig/utils.py:merge_list"]}
{"id": "C07", "title": "List merge loses no element", "statement": "If identifiers are pairwise distinct inside each list, then every element of l1 and every element of l2 is represented in merge_list(l1, l2): either itself, or merged with the element of the other list which has the same identifier.", "quantifier": "every pair of lists with distinct identifiers", "why_tests_cant": "all lists", "anchors": ["netjsonconfig/utils.py:merge_list"]}
{"id": "C08", "title": "List merge does not duplicate common elements", "statement": "An element of the config list that equals (Python ==) an element of the template list is not added a second time.", "quantifier": "every pair of lists", "why_tests_cant": "all lists", "anchors": ["netjsonconfig/utils.py:merge_list"]}
{"id": "C09", "title": "Template chain: later templates win, main config wins over all", "statement": "With templates [t1..tn] and config c the configuration is the left-to-right merge of t1..tn then c; a scalar defined at a top-level key by c is the final one; otherwise the last template defining it with a scalar decides; with no templates the configuration is c itself.", "quantifier": "every number of templates and every content", "why_tests_cant": "histories of merges of any length", "anchors": ["netjsonconfig/backends/base/backend.py:BaseBackend._merge_config", "netjsonconfig/utils.py:merge_config"]}
{"id": "C10", "title": "Grouping of templates does not matter (list-free data)", "statement": "Merging is associative for configurations that contain no lists: merging t1 with (t2 merged with t3) gives what merging (t1 merged with t2) with t3 gives, as long as t3 has no dict at a key where t2 has a scalar (then it may differ).", "quantifier": "every three list-free dictionaries", "why_tests_cant": "unbounded trees", "anchors": ["netjsonconfig/utils.py:merge_config"]}
{"id": "C11", "title": "The constructor never changes the caller's objects", "statement": "After constructing a backend with config, templates and context, no dict or list of the resulting backend configuration is shared with the caller's config or templates, so variable evaluation and rendering (which mutate in place) cannot change them.", "quantifier": "every config and template list", "why_tests_cant": "aliasing bugs show only for particular shapes and histories of mutations", "anchors": ["netjsonconfig/backends/base/backend.py:BaseBackend.__init__", "netjsonconfig/backends/base/backend.py:_merge_config", "netjsonconfig/utils.py:merge_config", "netjsonconfig/utils.py:evaluate_vars"]}
{"id": "C12", "title": "Merged key order is deterministic", "statement": "The keys of the merged dict are the template's keys in template order followed by the config's new keys in config order; the order of rendered packages therefore depends only on the inputs.", "quantifier": "every pair of dictionaries", "why_tests_cant": "unbounded input", "anchors": ["netjsonconfig/utils.py:merge_config"]}
{"id": "C13", "title": "Variable evaluation only rewrites string values", "statement": "evaluate_vars returns a structure with the same keys in the same order, the same list lengths and the same non-string values; only string values may differ and each is the evaluation of the original string.", "quantifier": "every structure and context", "why_tests_cant": "every tree shape", "anchors": ["netjsonconfig/utils.py:evaluate_vars"]}
{"id": "C14", "title": "Unknown variables and plain strings are left alone", "statement": "A string none of whose {{ name }} placeholders is defined in the context is returned unchanged, in particular a string with no placeholder.", "quantifier": "every string and context", "why_tests_cant": "all strings", "anchors": ["netjsonconfig/utils.py:evaluate_vars", "netjsonconfig/utils.py:var_pattern"]}
{"id": "C15", "title": "Variables are replaced literally and simultaneously", "statement": "Provided the context values used contain no '{' and no backslash and the text has no '{{' left when its placeholders are removed, every placeholder whose name is in the context is replaced by exactly str(value), all other text is unchanged, and text inserted for one variable is not expanded again. Each of the three conditions is necessary.", "quantifier": "every text, every set of placeholders and every context meeting the conditions", "why_tests_cant": "interactions of several variables, and of values with the regex engine, appear only for special values", "anchors": ["netjsonconfig/utils.py:evaluate_vars"]}
{"id": "C16", "title": "Blank space inside the braces is irrelevant", "statement": "{{name}}, {{ name }} and any other amount of white space between the braces and the name of a defined variable evaluate to the same text (under the conditions of C15).", "quantifier": "every text, context and amount of white space", "why_tests_cant": "unbounded", "anchors": ["netjsonconfig/utils.py:evaluate_vars"]}
{"id": "C17", "title": "No context means no evaluation", "statement": "With an empty or missing context the configuration is exactly the merged one.", "quantifier": "every configuration", "why_tests_cant": "all inputs", "anchors": ["netjsonconfig/backends/base/backend.py:_evaluate_vars"]}
{"id": "C18", "title": "Evaluating twice is the same as once", "statement": "Under the conditions of C15, evaluating the result again with the same context changes nothing; it can when a value contains braces.", "quantifier": "every text and context meeting the conditions", "why_tests_cant": "all texts", "anchors": ["netjsonconfig/utils.py:evaluate_vars"]}
{"id": "C19", "title": "Accepted file paths cannot escape the extraction directory", "statement": "If validate() accepts a configuration, resolving any path of its files relative to a root directory never leaves that root: there is no empty, '.' or '..' component, at most one leading slash.", "quantifier": "every files list and path string", "why_tests_cant": "all strings", "anchors": ["netjsonconfig/backends/base/backend.py:_validate_file_paths"]}
{"id": "C20", "title": "Exactly the documented file paths are accepted", "statement": "A path without template variables is accepted iff it is made of letters, digits, '.', '_', '-' and '/', has at least one component, and no component is empty, '.' or '..' (one leading slash allowed). An unterminated '{{' or a stray brace is always rejected.", "quantifier": "every string", "why_tests_cant": "all strings", "anchors": ["netjsonconfig/backends/base/backend.py:_validate_file_path_chars", "netjsonconfig/backends/base/backend.py:_validate_file_paths"]}
{"id": "C21", "title": "Files are deduplicated by path, last definition wins", "statement": "After rendering, the files list has one entry per path; the entry is the last one defined for that path, entries are in order of first appearance of their path, and deduplicating again changes nothing.", "quantifier": "every files list", "why_tests_cant": "all lists", "anchors": ["netjsonconfig/backends/base/backend.py:_deduplicate_files"]}
{"id": "C22", "title": "The archive stores ASCII file contents completely", "statement": "The bytes of an archive member are a prefix of the UTF-8 encoding of the contents given for it, one byte per character: they are the complete encoding exactly when the contents are ASCII (a file with other characters is cut short).", "quantifier": "every text, including non-ASCII", "why_tests_cant": "tests use ASCII samples", "anchors": ["netjsonconfig/backends/base/backend.py:_add_file"]}
{"id": "C23", "title": "Archive members of accepted files have safe names", "statement": "For every file list accepted by validate(), the members written for it have a relative name with no '.', '..' or empty component.", "quantifier": "every accepted files list", "why_tests_cant": "generated files depend on other options (ca path, config_path)", "anchors": ["netjsonconfig/backends/base/backend.py:_process_files", "netjsonconfig/backends/openvpn/converters.py:__add_tls_auth_key", "netjsonconfig/backends/openwrt/converters/zerotier.py"]}
{"id": "C24", "title": "The rendered files section shows every file completely", "statement": "render() appends after the native configuration, for every file in order, its path, mode and exact contents, provided the contents are not empty and neither start nor end with a line break nor contain three in a row (otherwise different contents can be shown alike).", "quantifier": "every files list", "why_tests_cant": "all contents", "anchors": ["netjsonconfig/backends/base/backend.py:_render_files", "netjsonconfig/backends/base/backend.py:render"]}
{"id": "C25", "title": "File modes are interpreted as octal", "statement": "The permission bits of an archive member are the octal value of the mode string (default 0644) and every schema-valid mode is convertible.", "quantifier": "every string of 3 or 4 octal digits", "why_tests_cant": "all mode strings", "anchors": ["netjsonconfig/backends/base/backend.py:_add_file", "netjsonconfig/schema.py"]}
{"id": "C26", "title": "Rendering is repeatable", "statement": "If render() succeeds and the configuration it leaves in the object is valid (always the case when the converters do not change it and removing duplicate files keeps it valid), calling it again any number of times succeeds, returns the same text and leaves the object unchanged.", "quantifier": "every configuration accepted by the first call, any number of repetitions", "why_tests_cant": "state carried between calls", "anchors": ["netjsonconfig/backends/base/backend.py:render", "netjsonconfig/backends/base/backend.py:to_intermediate", "netjsonconfig/backends/base/backend.py:_deduplicate_files"]}
{"id": "C27", "title": "render() does not change what json() returns", "statement": "When the converters do not change the configuration and no file path is given twice, json() returns the same document before and after render(); with repeated paths every key but files is the same.", "quantifier": "every configuration", "why_tests_cant": "history of calls", "anchors": ["netjsonconfig/backends/base/backend.py:json", "netjsonconfig/backends/openwrt/converters/default.py:to_intermediate"]}
{"id": "C28", "title": "The native configuration is computed once", "statement": "After the first successful render() the native part of the output of later render() calls is the same whatever is done to the config attribute (as long as it validates): converters are not run again.", "quantifier": "every sequence of config changes and render calls", "why_tests_cant": "histories", "anchors": ["netjsonconfig/backends/base/backend.py:render"]}
{"id": "C29", "title": "render(files=True) extends render(files=False)", "statement": "The text with files is the text without files followed by the files section; with no files the two are equal.", "quantifier": "every backend state", "why_tests_cant": "all states", "anchors": ["netjsonconfig/backends/base/backend.py:render"]}
{"id": "C30", "title": "The archive holds one file per UCI package with its text", "statement": "For the OpenWrt backend, generate() puts one member etc/config/<package> per package of the rendered configuration, in order, whose contents are the text of the package's blocks (up to one line break at the end), with mode 0644, followed by the additional files.", "quantifier": "every set of packages with clean ASCII names and values", "why_tests_cant": "all configurations", "anchors": ["netjsonconfig/backends/openwrt/openwrt.py:_generate_contents", "netjsonconfig/backends/base/backend.py:generate"]}
{"id": "C31", "title": "Constructor argument contract", "statement": "Neither config nor native: ValueError; config neither a dict nor a JSON object string: TypeError; non-empty templates that are not a list: TypeError; otherwise configuration is loaded; when both are given config is used and native ignored.", "quantifier": "every combination of argument kinds", "why_tests_cant": "all inputs", "anchors": ["netjsonconfig/backends/base/backend.py:BaseBackend.__init__", "netjsonconfig/backends/base/backend.py:_load", "netjsonconfig/backends/base/backend.py:_merge_config"]}
{"id": "C32", "title": "Parsing keeps the parsed intermediate data", "statement": "After OpenWrt(native=text) the intermediate_data attribute is exactly what the parser produced although converters consume blocks while converting to NetJSON.", "quantifier": "every parsed document", "why_tests_cant": "all documents", "anchors": ["netjsonconfig/backends/base/backend.py:to_netjson"]}
{"id": "C33", "title": "UCI render/parse round trip", "statement": "Parsing the rendered UCI text of packages whose names, types and keys are distinct words and whose values have no quotes, line breaks or runs of four spaces gives back the same packages, blocks, types, names, options and lists in order, up to sorting of keys, textual form of scalars and options with empty lists (not written); blocks of type device and bridge-vlan are excluded (the parser rewrites them). Without these conditions values are changed or forge other options.", "quantifier": "every number of packages, blocks, options and list items, every clean text", "why_tests_cant": "text formats fail on rare combinations", "anchors": ["netjsonconfig/backends/openwrt/templates/openwrt.jinja2", "netjsonconfig/backends/openwrt/renderer.py:cleanup", "netjsonconfig/backends/openwrt/parser.py"]}
{"id": "C34", "title": "Rendered UCI has exactly the intended lines", "statement": "For clean data the rendered document contains exactly one config line per block and one option/list line per non-empty option value/list item, in order.", "quantifier": "every clean intermediate data", "why_tests_cant": "all data", "anchors": ["netjsonconfig/backends/openwrt/templates/openwrt.jinja2", "netjsonconfig/backends/openwrt/renderer.py"]}
{"id": "C35", "title": "Empty, null and internal keys are never rendered", "statement": "Options whose value is '' or None, and keys starting with '.', produce no line; booleans are rendered as 1/0.", "quantifier": "every block", "why_tests_cant": "all blocks", "anchors": ["netjsonconfig/backends/openwrt/templates/openwrt.jinja2"]}
{"id": "C36", "title": "Rendered UCI is in normal form", "statement": "The output has no three consecutive line breaks and, when not empty, ends with exactly one line break (clean data).", "quantifier": "every clean intermediate data", "why_tests_cant": "all data", "anchors": ["netjsonconfig/backends/openwrt/renderer.py:cleanup"]}
{"id": "C37", "title": "Archive and text parse alike", "statement": "Parsing the generated archive gives the same intermediate data as parsing the rendered text, whatever additional files outside etc/config it holds (clean ASCII data; with other characters the archive is cut and may not be readable).", "quantifier": "every clean configuration, every list of additional members", "why_tests_cant": "all configurations", "anchors": ["netjsonconfig/backends/openwrt/parser.py:parse_tar", "netjsonconfig/backends/openwrt/openwrt.py:_generate_contents"]}
{"id": "C38", "title": "Parser accepts quoted, double quoted and unquoted values alike", "statement": "Two UCI documents that differ only in the quotes around types, names and values, in indentation and in the number of blank lines are parsed alike, and to the packages, blocks and options that they state (values without quotes and line breaks inside; unquoted values without outer blanks).", "quantifier": "every document", "why_tests_cant": "all documents", "anchors": ["netjsonconfig/backends/openwrt/parser.py:_strip_quotes"]}
{"id": "C39", "title": "NTP settings survive a round trip", "statement": "Converting ntp settings to UCI text and back gives the same settings. Settings that survive UCI: texts without quotes, line breaks or runs of four blanks, non-empty lists of them, integers declared as such, booleans declared as such, no empty values; an id is a word other than 'ntp'.", "quantifier": "every ntp object of such settings", "why_tests_cant": "all values", "anchors": ["netjsonconfig/backends/openwrt/converters/ntp.py"]}
{"id": "C40", "title": "LED settings survive a round trip", "statement": "Converting the led list to UCI text and back gives the same list of the same settings, in order.", "quantifier": "every non-empty led list of settings that survive UCI (ids other than the automatic one)", "why_tests_cant": "all values", "anchors": ["netjsonconfig/backends/openwrt/converters/led.py"]}
{"id": "C41", "title": "General settings survive a round trip", "statement": "hostname, timezone and custom general settings survive NetJSON to UCI text to NetJSON; a missing hostname comes back as OpenWRT; a ULA prefix becomes a globals section of the network package; the timezone rendered is the POSIX string of the zone and the zone name is kept beside it.", "quantifier": "every general object with a known timezone, no ula settings, and custom options that are texts (or lists of texts) that survive UCI", "why_tests_cant": "all values", "anchors": ["netjsonconfig/backends/openwrt/converters/general.py", "netjsonconfig/backends/openwrt/timezones.py"]}
{"id": "C42", "title": "Static routes survive a round trip", "statement": "Routes keep destination, prefix length, next hop, device, cost and extra options through UCI text; the type follows the address family; the IPv4 netmask is the one of the prefix. IPv6 destinations lose their host bits, so the round trip is for those without.", "quantifier": "every canonical IPv4 destination (every address, every prefix length 0..32), every canonical IPv6 destination without host bits, every list of routes whose other settings survive UCI", "why_tests_cant": "2^32 addresses x 33 prefixes", "anchors": ["netjsonconfig/backends/openwrt/converters/routes.py"]}
{"id": "C43", "title": "Policy rules get the right family and survive a round trip", "statement": "A rule whose dest (or, without dest, whose src) is IPv6 becomes rule6, any other rule; an src or dest that is not a network (for instance with host bits) makes the conversion fail with ValueError; converting to UCI text and back gives the same rules.", "quantifier": "every rule list (round trip: settings that survive UCI)", "why_tests_cant": "all values", "anchors": ["netjsonconfig/backends/openwrt/converters/rules.py"]}
{"id": "C44", "title": "Switch VLANs return to their switch", "statement": "Converting switches with VLANs to UCI text and back gives the same switches with the same VLANs in order; only the identifier of a VLAN may change, and for one switch nothing does. (With several switches VLANs without an id come back with one; a switch without VLANs comes back without the vlan list.)", "quantifier": "every non-empty list of switches with distinct names and at least one VLAN each", "why_tests_cant": "all lists", "anchors": ["netjsonconfig/backends/openwrt/converters/switch.py"]}
{"id": "C45", "title": "Every WireGuard peer gets its own section", "statement": "All peers of the config are converted, in order, each to its own section of the network package with all its options; the section names differ unless the first peer's interface is named like another peer's interface followed by '_' and that peer's position; converting back gives the same peers.", "quantifier": "every list of peers (round trip: interface names without '-' and settings that survive UCI)", "why_tests_cant": "name collisions depend on combinations", "anchors": ["netjsonconfig/backends/openwrt/converters/wireguard_peers.py", "netjsonconfig/backends/base/backend.py:to_intermediate"]}
{"id": "C46", "title": "Band / hwmode inference is correct and total", "statement": "Every schema-valid radio is converted without error. If the channel check accepts it and its band and hwmode, where the schema leaves them open, do not contradict the band, the dsa output has exactly the band (2g, 5g, 6g, 60g) of the schema alternative it matches and no hwmode; the legacy output (2.4 and 5 GHz) has the given hwmode or else 11a for 5 GHz, 11b for 802.11b and 11g otherwise, and no band. An explicit band is always the one rendered.", "quantifier": "every schema-valid radio: every protocol, channel, width, band, hwmode combination and any further options", "why_tests_cant": "large product space", "anchors": ["netjsonconfig/backends/openwrt/converters/radios.py", "netjsonconfig/channels.py"]}
{"id": "C47", "title": "Radio settings survive a round trip", "statement": "Name, protocol, channel, channel width, power, state, country, HT40+/- and the other options of a list of mac80211 radios survive NetJSON to UCI text to NetJSON, in both syntaxes; only driver, band or hwmode are added. Exceptions: 802.11b in dsa syntax and the width of 802.11ad.", "quantifier": "every list of schema-valid mac80211 radios with values that survive UCI", "why_tests_cant": "large product space", "anchors": ["netjsonconfig/backends/openwrt/converters/radios.py"]}
{"id": "C48", "title": "Wi-Fi interfaces and their encryption survive the round trip", "statement": "A Wi-Fi interface with its mode, radio, options, networks, MAC address and encryption (every protocol, cipher, key and RADIUS setting) comes back the same from NetJSON to UCI text to NetJSON, except: a WPS object without wps_ settings (or another protocol with them), a shared WEP key beginning with s:, an accounting secret equal to the key, a cipher of a non-WPA protocol.", "quantifier": "every protocol, cipher and key", "why_tests_cant": "all keys and combinations", "anchors": ["netjsonconfig/backends/openwrt/converters/wireless.py"]}
{"id": "C49", "title": "Disabled or 'none' encryption never leaks keys", "statement": "When encryption is empty, disabled or of protocol none the section only says encryption 'none': no key or secret is rendered.", "quantifier": "every encryption object", "why_tests_cant": "all objects", "anchors": ["netjsonconfig/backends/openwrt/converters/wireless.py:__intermediate_encryption"]}
{"id": "C50", "title": "Roaming options are dropped when 802.11r is off", "statement": "If ieee80211r is false, no roaming option is rendered; otherwise they are kept.", "quantifier": "every wireless object", "why_tests_cant": "all objects", "anchors": ["netjsonconfig/backends/openwrt/converters/wireless.py:__intermediate_roaming"]}
{"id": "C51", "title": "Wi-Fi interfaces are attached to their bridges", "statement": "A wifi interface without explicit networks is attached to exactly the bridges that list it as a member, in order and once each; otherwise to itself if it has addresses; otherwise to nothing.", "quantifier": "every set of bridges and members", "why_tests_cant": "all topologies", "anchors": ["netjsonconfig/backends/openwrt/converters/wireless.py:_track_bridged_wifi", "netjsonconfig/backends/openwrt/converters/wireless.py:__intermediate_auto_network"]}
{"id": "C52", "title": "Unknown packages pass through unchanged", "statement": "Blocks of packages unknown to the schema with a config_name are rendered under that package with the given type, name (sanitised, or type and position) and all their options, in order; nothing else is; converting to UCI text and back gives the same blocks.", "quantifier": "every set of packages and block lists (round trip: settings that survive UCI, names that sanitising keeps)", "why_tests_cant": "all data", "anchors": ["netjsonconfig/backends/openwrt/converters/default.py"]}
{"id": "C53", "title": "Boolean and integer coercion when parsing", "statement": "Options declared boolean become true iff the value is '1' (as the code compares); declared integers become the integer written; anything else is untouched; it fails exactly when an option declared integer is not a number.", "quantifier": "every item and schema", "why_tests_cant": "all items", "anchors": ["netjsonconfig/backends/base/converter.py:type_cast"]}
{"id": "C54", "title": "UCI section names are valid identifiers", "statement": "A sanitised name has no '.' or '-', keeps its length and every other character; the names of the sections of the default converter are such names.", "quantifier": "every name, every block", "why_tests_cant": "all names", "anchors": ["netjsonconfig/backends/openwrt/converters/base.py:_get_uci_name", "netjsonconfig/backends/openwrt/converters/default.py"]}
{"id": "C55", "title": "One primary VLAN per port", "statement": "The check of validate() after the schema refuses (ValidationError) exactly the configurations in which some bridge's VLAN filtering sets the primary VID of the same port twice; bridges are independent and other interfaces are not checked.", "quantifier": "every interface list", "why_tests_cant": "all combinations", "anchors": ["netjsonconfig/backends/openwrt/openwrt.py:validate"]}
{"id": "C56", "title": "Automatic channel needs a band", "statement": "The check of validate() before the schema refuses exactly the radio lists in which some 802.11n/ax radio has channel 0 and neither band nor hwmode; a radio without protocol raises KeyError there.", "quantifier": "every radio list", "why_tests_cant": "all lists", "anchors": ["netjsonconfig/backends/openwrt/openwrt.py:_validate_radios"]}
{"id": "C57", "title": "OpenVPN text round trip", "statement": "Parsing the rendered OpenVPN text gives the same options back.", "quantifier": "every clean OpenVPN option set", "why_tests_cant": "all option sets", "anchors": ["netjsonconfig/backends/openvpn/parser.py", "netjsonconfig/backends/openvpn/templates/openvpn.jinja2", "netjsonconfig/backends/openvpn/converters.py"]}
{"id": "C58", "title": "OpenVPN data ciphers round trip", "statement": "The data_ciphers list with optional markers survives rendering and parsing.", "quantifier": "every cipher list", "why_tests_cant": "all lists", "anchors": ["netjsonconfig/backends/openvpn/converters.py"]}
{"id": "C59", "title": "OpenVPN falsy options are omitted", "statement": "Options that are false, 0 or '' are not rendered, except script_security and remote; server_bridge '' is rendered as a bare flag; status_version only with status.", "quantifier": "every option set", "why_tests_cant": "all sets", "anchors": ["netjsonconfig/backends/openvpn/converters.py:__intermediate_vpn"]}
{"id": "C60", "title": "Inline tls_auth keys become protected files", "statement": "A tls_auth value that is key material is moved to a file of mode 0600 next to the CA and replaced by 'path direction' with direction 0 on servers and 1 on clients; a 'path direction' value is left alone.", "quantifier": "every option set", "why_tests_cant": "all sets", "anchors": ["netjsonconfig/backends/openvpn/converters.py:__add_tls_auth_key"]}
{"id": "C61", "title": "OpenVPN auto client matches the server", "statement": "auto_client returns p2p mode, tcp-client iff the server is tcp-server, tls_client iff the server has tls_server, the server's port (default 1195), and copies the shared options.", "quantifier": "every server dictionary", "why_tests_cant": "all dictionaries", "anchors": ["netjsonconfig/backends/openvpn/openvpn.py:auto_client"]}
{"id": "C62", "title": "WireGuard output holds every peer and option once", "statement": "Every configured option is renamed to its WireGuard name, empty ones are omitted, and every peer appears with its keys.", "quantifier": "every tunnel", "why_tests_cant": "all tunnels", "anchors": ["netjsonconfig/backends/wireguard/converters.py"]}
{"id": "C63", "title": "WireGuard / VXLAN auto client", "statement": "wireguard_auto_client and vxlan_wireguard_auto_client produce interface and peer entries consistent with the server arguments.", "quantifier": "every argument combination", "why_tests_cant": "all arguments", "anchors": ["netjsonconfig/backends/openwrt/openwrt.py:wireguard_auto_client", "netjsonconfig/backends/openwrt/openwrt.py:vxlan_wireguard_auto_client"]}
{"id": "C64", "title": "ZeroTier: device map, joined networks, sections and their way back", "statement": "Converting a configuration with ZeroTier entries leaves in its files exactly one devicemap per configured directory (mode 0644) with a line id=ifname for every network of the entries using it and the contents of user files at that path; the other files and keys are unchanged. In the UCI output every entry is one zerotier section joining all ids in order, followed by one network section per network with all its options. Through UCI text and back all options of an entry return, every network twice, with names made from the ids. The automatic client puts the client options in every network.", "quantifier": "every ZeroTier entry list, files list and network", "why_tests_cant": "all lists", "anchors": ["netjsonconfig/backends/openwrt/converters/zerotier.py", "netjsonconfig/backends/zerotier/zerotier.py:auto_client"]}
{"id": "C65", "title": "OpenWisp: radios, text, scripts and archive", "statement": "validate() gives every radio an explicit disabled (false where missing) and changes nothing else. The text holds exactly the quoted lines of the data and is the same UCI configuration as that of the OpenWrt backend. generate() writes one uci/NAME.conf per package, the configured files, and install.sh, uninstall.sh, the VPN scripts and tc_script.sh with mode 755; the scripts become part of the configuration, once. Generating again gives the same archive if no two files share a path. Such an archive cannot be parsed back.", "quantifier": "every configuration, intermediate data and script text", "why_tests_cant": "all configurations and histories of calls", "anchors": ["netjsonconfig/backends/openwisp/openwisp.py:OpenWisp", "netjsonconfig/backends/openwisp/templates/openwrt.jinja2"]}
{"id": "C66", "title": "Valid configurations render without internal errors", "statement": "Let an OpenWrt configuration be accepted by validate(), and be tame: the ids and names of its sections are text, route destinations are networks, OpenVPN servers have no remote, WireGuard interfaces have addresses, modem-manager and VXLAN interfaces have none, IPv4 masks are at most 32, wireless settings are on wireless interfaces and VLAN filtering on bridges and with VLAN numbers, names of bridges have no dot, monitors have no encryption, and addresses and encryptions have no options ipaddr, ip6addr, .name, network. Then render() gives text, and generate() an archive, or they raise ValidationError, never KeyError, TypeError, ValueError or AttributeError. Each of these conditions is needed: for each there is a configuration the schema accepts that makes render() raise another error.", "quantifier": "every valid tame configuration, with and without DSA and files", "why_tests_cant": "the schema accepts infinitely many shapes; nothing ties the schema to what the converters assume", "anchors": ["netjsonconfig/backends/openwrt/schema.py", "netjsonconfig/schema.py", "netjsonconfig/backends/base/backend.py:validate", "netjsonconfig/backends/openwrt/converters/"]}
{"id": "C67", "title": "Interfaces: one UCI section per address group", "statement": "The OpenWrt output has for every configured interface, in order: for WireGuard one logical section; without addresses one with proto none (none at all for a wireless interface); else one for all its static addresses together and one for each DHCP address. The sections are named after the network (or sanitised interface) name, then NAME_2, NAME_3...; each has the protocol, exactly the configured addresses with their masks, the gateway, the DNS servers and search domains (static sections only), and every other option unchanged. Sections of one interface have different names; two sections of equal names (of any interfaces) are merged into one.", "quantifier": "every interface list", "why_tests_cant": "all interface and address lists", "anchors": ["netjsonconfig/backends/openwrt/converters/interfaces.py:to_intermediate_loop", "netjsonconfig/backends/openwrt/converters/interfaces.py:__intermediate_addresses", "netjsonconfig/backends/openwrt/converters/interfaces.py:__set_dns"]}
{"id": "C74", "title": "Bridge VLAN filtering: every VLAN has its section and its interface", "statement": "For a bridge with vlan_filtering every configured VLAN gives exactly one bridge-vlan section with its id, its device and all its ports (with tag and primary marks), and one logical interface on DEVICE.ID with proto none (an interface configured on that device is not declared a second time as a device).", "quantifier": "every bridge and VLAN list", "why_tests_cant": "all lists of VLANs and ports", "anchors": ["netjsonconfig/backends/openwrt/converters/interfaces.py:__intermediate_vlan", "netjsonconfig/backends/openwrt/converters/interfaces.py:_add_bridge_vlan"]}
{"id": "C68", "title": "The command line program passes its arguments on and reports faithfully", "statement": "--args k=v pairs become keyword arguments (the last value of a key counts; True/1 and False/0 become booleans); an argument without exactly one '=' ends the program with status 3 before anything is converted. `render` prints exactly what render() of the object built from configuration, templates and environment gives; validate prints nothing and ends normally exactly when the configuration is valid, with status 4 exactly when validation fails; status 1 is used exactly for missing or unreadable inputs.", "quantifier": "every argument list, configuration, template list, environment and backend class", "why_tests_cant": "all strings and configurations", "anchors": ["bin/netjsonconfig:parse_method_arguments", "bin/netjsonconfig:_load", "bin/netjsonconfig:print_output"]}
{"id": "C69", "title": "What a failed conversion leaves behind", "statement": "When a converter raises an exception during the first render(), the object keeps the intermediate data of the converters that ran before it, and the next render() on it succeeds silently with that partial output.", "quantifier": "every class, configuration, and point of failure", "why_tests_cant": "crash points", "anchors": ["netjsonconfig/backends/base/backend.py:render", "netjsonconfig/backends/base/backend.py:to_intermediate"]}
{"id": "C72", "title": "One archive member per VPN, and the archive reads like the text", "statement": "generate() of the OpenVPN and WireGuard backends writes exactly one file for each configured VPN, in order, named after it and holding its lines, followed by the additional files; parsing such an OpenVPN archive gives what parsing the rendered text gives, whatever other files it holds.", "quantifier": "every list of VPNs and further archive members", "why_tests_cant": "all lists of VPNs, names and texts", "anchors": ["netjsonconfig/backends/base/backend.py:BaseVpnBackend._generate_contents", "netjsonconfig/backends/openvpn/parser.py:parse_tar"]}
{"id": "C73", "title": "Interfaces survive UCI", "statement": "Ethernet, loopback and bridge interfaces (with no address, one DHCP address, or static addresses; MTU, MAC, autostart, disabled, bridge members and bridge options, other text options) converted to OpenWrt UCI text, parsed and converted back are the interfaces they were, in their order; the DNS servers and search domains come back once for each interface that uses them; nothing else comes back.", "quantifier": "every list of interfaces that do not get into each other's way (before and after the switch to DSA)", "why_tests_cant": "all lists of interfaces, options and addresses", "anchors": ["netjsonconfig/backends/openwrt/converters/interfaces.py:Interfaces"]}
{"id": "C71", "title": "A whole configuration survives OpenWrt", "statement": "A configuration with general settings, NTP, LEDs, wired and wireless interfaces, DNS, routes, policy rules, switches, radios, OpenVPN, WireGuard peers and custom packages, rendered by the OpenWrt backend and given back as native text, is read as the same configuration: every section comes back with the same objects in the same order (the wireless interfaces after the others), wireless members of bridges are recognised, and nothing is added or lost, whatever sections are combined. The condition across sections is that no two sections of a UCI package have the same name.", "quantifier": "every combination of sections, before and after the switch to DSA", "why_tests_cant": "all configurations made of sections that survive on their own", "anchors": ["netjsonconfig/backends/openwrt/openwrt.py:OpenWrt", "netjsonconfig/backends/base/backend.py:to_intermediate", "netjsonconfig/backends/base/backend.py:to_netjson"]}
{"id": "C75", "title": "JSON texts and dictionaries are interchangeable", "statement": "Loading the JSON text of a configuration gives the same configuration, whatever characters, nesting and order of keys it has; the document that json() returns can be given to the constructor as text and gives the same configuration; and it makes no difference whether the configuration and the templates are given as dictionaries or as JSON texts. The JSON documents of the ZeroTier backend hold the same data, with sorted keys.", "quantifier": "every data of texts, integers, booleans, null, lists and dictionaries of any depth", "why_tests_cant": "all data and characters", "anchors": ["netjsonconfig/backends/base/backend.py:json", "netjsonconfig/backends/base/backend.py:_load", "netjsonconfig/backends/zerotier/templates/zerotier.jinja2"]}
{"id": "C77", "title": "Time zones", "statement": "Every time zone that a valid configuration can name is written by the OpenWrt backend as its POSIX string, with the name of the zone beside it, and comes back as the same zone; a zone that is not in the table is refused. A section without a zone name is read as the last zone of the table with the same POSIX string, so that writing it again does not change the clock; a POSIX string that is not in the table is refused.", "quantifier": "every zone and every POSIX string of the table, and every one outside; every other setting", "why_tests_cant": "all zones, combined with all settings", "anchors": ["netjsonconfig/backends/openwrt/converters/general.py:General", "netjsonconfig/backends/openwrt/timezones.py:timezones", "netjsonconfig/backends/openwrt/timezones.py:timezones_reversed"]}
{"id": "C78", "title": "Interfaces: every option is written in its place, and nowhere else", "statement": "For every configured interface of every type, in the older and the newer (DSA) syntax, each written section (device, bridge VLAN, logical interface) has exactly the options that belong there, each with the configured value: MAC address as macaddr, autostart as auto, disabled negated as enabled, port as listen_port, vni as vid and so on; link layer, STP and IGMP options go to the device only (which is written exactly when the interface is a bridge or VLAN or has such options); VLAN devices are called NAME.VID, bridges br-NAME; only the first section of a bridge declares it, lists its members and has the gateway; nothing else of the configuration appears.", "quantifier": "every interface list (bridge members given as lists), DSA on or off", "why_tests_cant": "all option names and values, types, lists of addresses and VLANs and their order", "anchors": ["netjsonconfig/backends/openwrt/converters/interfaces.py:__intermediate_interface", "netjsonconfig/backends/openwrt/converters/interfaces.py:__intermediate_device", "netjsonconfig/backends/openwrt/converters/interfaces.py:__intermediate_bridge", "netjsonconfig/backends/openwrt/converters/interfaces.py:_add_l2_options"]}
{"id": "C76", "title": "ZeroTier networks survive the ZeroTier backend", "statement": "Networks rendered by the ZeroTier backend and given back as native text come back the same, in order, without their client options; generate() writes one file for each network, named after its identifier and holding its options as a JSON document, and parsing the archive gives what parsing the text gives.", "quantifier": "every non-empty list of networks whose texts hold no comment marks", "why_tests_cant": "all networks, options and texts", "anchors": ["netjsonconfig/backends/zerotier/converters.py:ZeroTier", "netjsonconfig/backends/zerotier/parser.py:ZeroTierParser", "netjsonconfig/backends/zerotier/renderer.py:ZeroTierRenderer"]}
{"id": "C79", "title": "OpenVPN settings of OpenWrt survive UCI", "statement": "The VPNs of an OpenWrt configuration, converted to UCI text and back, are the same list of VPNs in the same order: the name (dots and dashes as underscores), whether it is disabled, and every option that is written with the value it was given - servers with host, port and protocol (auto is the default and is left out), data ciphers with their optional marks, control channel ciphers, empty server_bridge. Empty texts, a fragment size of zero, and status_version without status are not written; nothing else is lost and nothing is added.", "quantifier": "every non-empty list of VPNs whose options have the types of the schema and texts that UCI can hold", "why_tests_cant": "all options, values, servers and ciphers", "anchors": ["netjsonconfig/backends/openwrt/converters/openvpn.py:OpenVpn", "netjsonconfig/backends/openvpn/converters.py:OpenVpn", "netjsonconfig/backends/openwrt/parser.py:OpenWrtParser"]}
{"id": "C80", "title": "Validation accepts exactly what the schema says", "statement": "validate() accepts a configuration exactly when the JSON schema of the backend accepts it, read as Draft 4 says, keyword by keyword: types (true is not a number), enumerations, patterns, formats (IPv4, IPv6 and network addresses, host names), bounds, lengths, unique items, properties, required and additional properties, allOf, anyOf, exactly one of oneOf, not, and references in place of the schema they lead to. Otherwise it raises ValidationError. The schemas of all six backends use nothing else, and the verdict does not depend on how deep they are nested.", "quantifier": "every configuration, of any size and depth, for each of the six schemas", "why_tests_cant": "all configurations and all the combinations of keywords the schemas use", "anchors": ["netjsonconfig/backends/base/backend.py:validate", "netjsonconfig/backends/base/backend.py:_cidr_notation", "netjsonconfig/backends/base/backend.py:_is_hostname", "netjsonconfig/schema.py:schema", "netjsonconfig/backends/openwrt/schema.py:schema", "netjsonconfig/backends/openvpn/schema.py:schema", "netjsonconfig/backends/wireguard/schema.py:schema", "netjsonconfig/backends/vxlan/schema.py:schema", "netjsonconfig/backends/zerotier/schema.py:schema", "netjsonconfig/backends/openwisp/schema.py:schema"]}
{"id": "C81", "title": "Valid VPN configurations are rendered and archived", "statement": "Let a configuration be accepted by validate() of the backend OpenVPN, WireGuard, VXLAN over WireGuard or ZeroTier. Then render(), with and without files, returns text and generate() returns an archive, with no exception at all, in every case but two, for which the schemas accept configurations that make render() raise KeyError: OpenVPN servers that have a remote, and WireGuard tunnels (of both backends) without address.", "quantifier": "every configuration accepted by the schema, for each of the four backends", "why_tests_cant": "the schemas accept infinitely many shapes; nothing ties the schemas to what the converters assume", "anchors": ["netjsonconfig/backends/openvpn/schema.py:schema", "netjsonconfig/backends/openvpn/converters.py:OpenVpn", "netjsonconfig/backends/wireguard/schema.py:schema", "netjsonconfig/backends/wireguard/converters.py:Wireguard", "netjsonconfig/backends/vxlan/schema.py:schema", "netjsonconfig/backends/zerotier/schema.py:schema", "netjsonconfig/backends/zerotier/converters.py:ZeroTier", "netjsonconfig/backends/base/backend.py:render", "netjsonconfig/backends/base/backend.py:generate"]}
{"id": "C70", "title": "Archives of the OpenWrt backend stay below the directory they are extracted in", "statement": "Every member of the archive made by the OpenWrt backend is either the file of a package in etc/config - system, network, wireless, openvpn, zerotier, or a list under a key that is not a NetJSON section - or has a path the configuration asks for: that of one of its files, of a TLS key given as text (next to the certificate of the authority), or of a ZeroTier map. If the names of other packages are proper file names and the paths of TLS keys and maps are valid, extraction in any directory writes below it only. validate() checks neither of these: configurations it accepts give archives that write outside.", "quantifier": "every configuration whose texts (other than files and TLS keys) hold no line break", "why_tests_cant": "all configurations, names and paths", "anchors": ["netjsonconfig/backends/openwrt/openwrt.py:_generate_contents", "netjsonconfig/backends/base/backend.py:_process_files", "netjsonconfig/backends/openvpn/converters.py:__add_tls_auth_key", "netjsonconfig/backends/openwrt/converters/zerotier.py:__get_zt_ifname_files", "netjsonconfig/backends/openwrt/converters/default.py:Default"]}
{"id": "C82", "title": "No value forges lines or files of an OpenWrt configuration", "statement": "When no text of a configuration has a line break (those of files, and TLS keys given as text, may have), the rendered text has exactly the lines of the packages, sections and options of the converted configuration, each without its runs of four blanks, and the archive has exactly one file per package, with the lines of that package, followed by the additional files: whatever quotes, keywords or other characters the values hold, none adds a line, a section, a package or a file. Without the hypothesis it is false: validate() accepts values with line breaks, and these add options, packages and files.", "quantifier": "every configuration, of any size and depth, before and after the switch to DSA", "why_tests_cant": "all texts in all places of a configuration", "anchors": ["netjsonconfig/backends/openwrt/renderer.py:OpenWrtRenderer", "netjsonconfig/backends/openwrt/openwrt.py:_generate_contents", "netjsonconfig/backends/openwrt/converters/base.py:OpenWrtConverter", "netjsonconfig/backends/base/backend.py:render"]}
{"id": "C83", "title": "The order of the keys of an OpenWrt configuration means nothing", "statement": "Two configurations that are the same JSON data - objects with the same keys and the same values, in any order of keys, at any depth; lists in the same order - are accepted by validate() or refused with the same error together, are rendered to the same text, and give the same members of the archive in the same order; or the conversion raises an exception for both. This holds when objects are found only where the schema defines them (blocks, addresses, wireless and encryption, VLANs and ports, switch VLANs, servers and ciphers, networks): an option with an object as its value, which the schema allows, is written as Python writes it, order included.", "quantifier": "every pair of configurations equal as JSON data, valid or not, in the older and the newer (DSA) syntax", "why_tests_cant": "all orders of keys in all objects of all configurations", "anchors": ["netjsonconfig/backends/base/backend.py:validate", "netjsonconfig/backends/base/backend.py:render", "netjsonconfig/backends/base/backend.py:generate", "netjsonconfig/utils.py:sorted_dict", "netjsonconfig/backends/openwrt/converters/default.py:Default", "netjsonconfig/backends/openwrt/converters/interfaces.py:Interfaces", "netjsonconfig/backends/openwrt/converters/openvpn.py:OpenVpn"]}
{"id": "C84", "title": "Templates for different sections can be given in any order", "statement": "If templates that are moved past each other have no key of the top level in common, the order they are given in does not matter: for every configuration of the device (which may override any of them), and every context, the constructor fails in both orders, or gives objects with the same value under every key; for the OpenWrt backend, these are accepted or refused together by validate(), are rendered to the same text and give the same archive (when objects are where the schema defines them, as in C83).", "quantifier": "every list of templates, every reordering that moves only disjoint templates past each other, every configuration and context", "why_tests_cant": "all lists of templates, all orders", "anchors": ["netjsonconfig/backends/base/backend.py:_merge_config", "netjsonconfig/utils.py:merge_config", "netjsonconfig/utils.py:merge_list", "netjsonconfig/utils.py:evaluate_vars", "netjsonconfig/backends/base/backend.py:render", "netjsonconfig/backends/base/backend.py:generate"]}
{"id": "C85", "title": "Each file of an OpenWrt archive depends on few sections", "statement": "The file of a package in the archive of the OpenWrt backend depends on the sections of that package only: system on general, ntp and led; network on interfaces, dns_servers, dns_search, routes, ip_rules, switch, wireguard_peers and general (ULA prefix); wireless on radios and the sections of network; openvpn and zerotier on the section of the same name; every package also on the list under its own name, and other packages on nothing else. Two configurations with the same values in these sections, however different elsewhere, have the same blocks of that package, and archives with the same text (up to a final line break) in its file, or without this file. The dependence of wireless on sections like routes is real: blocks of the same name are merged, and a route with the name of the device of a bridge turns it into a route.", "quantifier": "every package, every pair of configurations that agree on its sections, in the older and newer syntax", "why_tests_cant": "all changes of all other sections", "anchors": ["netjsonconfig/backends/openwrt/openwrt.py:_generate_contents", "netjsonconfig/backends/base/backend.py:to_intermediate", "netjsonconfig/backends/openwrt/converters/interfaces.py:Interfaces", "netjsonconfig/backends/openwrt/converters/wireless.py:_track_bridged_wifi", "netjsonconfig/backends/openwrt/converters/default.py:Default"]}
{"id": "C86", "title": "The scripts of an OpenWisp archive do what the configuration says", "statement": "For a configuration whose names, addresses and hostname contain no line break, generate() of the OpenWisp backend adds scripts of which, read line by line: install.sh sets the configured hostname once, creates a tap device for every VPN of layer 2, brings up every bridge and every radio, in the order of the configuration and nothing else, starts OpenVPN exactly when there are such VPNs and cron exactly when there are files for it, and closes every loop; uninstall.sh removes exactly the tap devices install.sh creates and stops cron exactly when install.sh starts it; start() of tc_script.sh limits output and input of exactly the interfaces with a bandwidth other than 0, to the configured rates, and stop() frees exactly what start() limits. (Names are not quoted: see the limits.)", "quantifier": "all configurations of any size, with names without line breaks", "why_tests_cant": "the scripts are made by loops over lists of any length with names from the user", "anchors": ["netjsonconfig/backends/openwisp/openwisp.py:_get_install_context", "netjsonconfig/backends/openwisp/openwisp.py:_add_tc_script", "netjsonconfig/backends/openwisp/templates/install.sh", "netjsonconfig/backends/openwisp/templates/uninstall.sh", "netjsonconfig/backends/openwisp/templates/tc_script.sh"]}
{"id": "C87", "title": "A valid OpenWisp configuration is rendered and archived without an internal error", "statement": "For every configuration that validate() of the OpenWisp backend (with its own schema) accepts, and that is tame as in C66 (clauses about what the schema leaves open), render() returns a text or raises ValidationError, and generate() - packages, install, uninstall, VPN and traffic control scripts, files - returns an archive or raises ValidationError; no KeyError, TypeError, ValueError, AttributeError or other error. One exception comes before validation: radios that are no objects make validate() itself raise AttributeError.", "quantifier": "every configuration, valid for the schema of OpenWisp and tame, of any size", "why_tests_cant": "all configurations the schema accepts", "anchors": ["netjsonconfig/backends/openwisp/openwisp.py:_generate_contents", "netjsonconfig/backends/openwisp/openwisp.py:_sanitize_radios", "netjsonconfig/backends/openwisp/openwisp.py:_get_install_context", "netjsonconfig/backends/openwisp/schema.py:schema", "netjsonconfig/backends/base/backend.py:render", "netjsonconfig/backends/base/backend.py:generate"]}
{"id": "C88", "title": "An OpenVPN file says what the configuration says", "statement": "render() of the OpenVPN backend returns, for every VPN of the configuration in their order, a line with its name, an empty line, and the lines its options say, in alphabetical order of the options: nothing for options that are false, 0 or empty (script_security and remote excepted, status_version only with status); the name of the option with dashes, alone for flags, before the value otherwise; one line for every element of a list and for every server (host, port, protocol unless auto); one line for all data ciphers, optional ones after a question mark; for a TLS key given as text a reference to a file next to the certificate of the authority, with direction 0 for servers and 1 for others, which is added to the files with mode 0600. generate() puts the lines of each VPN into a file of mode 0644 named after it, followed by the files; for a configuration the schema accepts the files stay below the directory the archive is unpacked in, when the paths of the TLS keys do (they are not validated, and neither are the names of WireGuard tunnels: see the limits).", "quantifier": "all configurations with any number of VPNs and options, of lines without line break and four spaces in a row; for the archive: ASCII, no VPN without options", "why_tests_cant": "every combination of options and values of any size", "anchors": ["netjsonconfig/backends/openvpn/converters.py:OpenVpn", "netjsonconfig/backends/openvpn/templates/openvpn.jinja2", "netjsonconfig/backends/base/backend.py:BaseVpnBackend._generate_contents", "netjsonconfig/backends/openvpn/openvpn.py:OpenVpn"]}
{"id": "C89", "title": "The order of the keys of a VPN configuration means nothing", "statement": "Two configurations of the OpenVPN, WireGuard, VXLAN or ZeroTier backend that are the same JSON data - objects with the same keys and the same values, in any order of keys, at any depth; lists in the same order - are accepted by validate() or refused with the same error together, are rendered to the same text, and give the same members of the archive in the same order; or both raise. This holds when objects are found only where the schema defines them: servers and data ciphers of OpenVPN, peers of WireGuard, and, because ZeroTier sorts at every depth, anywhere in a ZeroTier controller but in its identifier.", "quantifier": "every pair of configurations equal as JSON data, valid or not, for the four backends", "why_tests_cant": "all orders of keys in all objects of all configurations", "anchors": ["netjsonconfig/backends/base/backend.py:validate", "netjsonconfig/backends/base/backend.py:render", "netjsonconfig/backends/base/backend.py:generate", "netjsonconfig/backends/openvpn/converters.py:OpenVpn", "netjsonconfig/backends/wireguard/converters.py:Wireguard", "netjsonconfig/backends/zerotier/converters.py:ZeroTier", "netjsonconfig/backends/zerotier/templates/zerotier.jinja2"]}
{"id": "C90", "title": "Writing the archive to disk", "statement": "write(name, path) leaves in the file PATH/NAME.tar.gz, whatever was there before, the archive that generate() returns, and touches no other file; it makes no difference whether the path ends with a slash. If generate() raises, write() raises the same and no file is touched. Interrupted at any moment, the other files are as they were, and the file of the archive is as it was, empty, or complete.", "quantifier": "every object, name, path, state of the file system and moment of interruption", "why_tests_cant": "all crash points and file systems", "anchors": ["netjsonconfig/backends/base/backend.py:write"]}
{"id": "C91", "title": "What an object answers does not depend on what it was asked before", "statement": "Take an object made from a configuration that can be rendered. After any history of validate(), json(), render(files) and generate() calls, in any order and number, validate(), render(files) and generate() return what they return on a fresh object made from the same configuration: the same text, the same members of the archive. For OpenWrt and OpenVPN this needs the files made by the converters (inline tls_auth keys, device maps of ZeroTier) to have paths that validate() accepts; WireGuard, VXLAN and ZeroTier objects need nothing. For OpenWisp, whose generate() adds scripts to the files, the paths of all files have to be distinct and accepted, and render(True) is the same until generate() is called. json() always succeeds and shows the sections of the schema as given; only files and sections outside the schema can differ once the object was rendered. An object whose configuration is not valid answers every call of every history with the same exception and is never changed.", "quantifier": "every configuration and every finite history of calls, for the OpenWrt, OpenVPN, WireGuard, VXLAN, ZeroTier and OpenWisp backends with their schemas", "why_tests_cant": "all histories of calls", "anchors": ["netjsonconfig/backends/base/backend.py:validate", "netjsonconfig/backends/base/backend.py:render", "netjsonconfig/backends/base/backend.py:generate", "netjsonconfig/backends/base/backend.py:json", "netjsonconfig/backends/base/backend.py:to_intermediate", "netjsonconfig/backends/base/backend.py:_deduplicate_files", "netjsonconfig/backends/openvpn/converters.py:OpenVpn", "netjsonconfig/backends/openwrt/converters/zerotier.py:ZeroTier", "netjsonconfig/backends/openwrt/converters/default.py:Default", "netjsonconfig/backends/openwisp/openwisp.py:OpenWisp.validate", "netjsonconfig/backends/openwisp/openwisp.py:OpenWisp._generate_contents"]}
{"id": "C92", "title": "auto_client of a valid OpenVPN server gives a valid client", "statement": "Take a server of mode \"server\" that validate() of the OpenVPN backend accepts, a host that is a host name of 1 to 63 characters, and any of the three pairs of path and contents (authority, certificate, key), each of texts, with a path that a file may have and without white space, the paths distinct. Then auto_client(host, server, ...) returns a configuration, it does not raise; validate() of the OpenVPN backend and of the OpenWrt backend both accept it, without a change by hand; and the OpenVPN backend renders it and makes an archive of it.", "quantifier": "every server with any combination of options that the schema accepts, every host and all files", "why_tests_cant": "every combination of options and values; the schema's conditions must follow from those of the server", "anchors": ["netjsonconfig/backends/openvpn/openvpn.py:OpenVpn.auto_client", "netjsonconfig/backends/openvpn/schema.py:schema", "netjsonconfig/backends/openwrt/schema.py:schema", "netjsonconfig/backends/base/backend.py:validate", "netjsonconfig/backends/base/backend.py:render", "netjsonconfig/backends/base/backend.py:generate"]}
{"id": "C93", "title": "OpenWrt accepts the WireGuard, VXLAN and ZeroTier clients it makes", "statement": "For every WireGuard tunnel that validate() of the WireGuard (or VXLAN) backend accepts, and all arguments of the kinds the schemas allow - public key and network of the server given, ports from 1 to 65535, keys of at most 44 characters without white space, an address of at least 7 characters or none, for VXLAN a VNI that is a text or a number from 1 to 16777216 and a name of 2 to 15 characters - wireguard_auto_client() and vxlan_wireguard_auto_client() return, and validate() of the OpenWrt backend accepts what they return. For every list of ZeroTier networks with distinct identifiers of 16 characters, interface names of 1 to 10 characters and options that are truth values, validate() accepts what zerotier_auto_client() returns.", "quantifier": "every valid tunnel, all arguments, lists of networks of any length", "why_tests_cant": "every combination of arguments", "anchors": ["netjsonconfig/backends/openwrt/openwrt.py:OpenWrt.wireguard_auto_client", "netjsonconfig/backends/openwrt/openwrt.py:OpenWrt.vxlan_wireguard_auto_client", "netjsonconfig/backends/openwrt/openwrt.py:OpenWrt.zerotier_auto_client", "netjsonconfig/backends/wireguard/wireguard.py:Wireguard.auto_client", "netjsonconfig/backends/vxlan/vxlan_wireguard.py:VxlanWireguard.auto_client", "netjsonconfig/backends/zerotier/zerotier.py:ZeroTier.auto_client", "netjsonconfig/backends/openwrt/schema.py:schema", "netjsonconfig/backends/base/backend.py:validate"]}
{"id": "C94", "title": "The text of a ValidationError names every alternative", "statement": "validate() refuses a configuration if and only if the JSON Schema library finds an error, and the first one becomes the details of the exception. str(exception) never fails: it is the name of the exception, the error, and one block \"Against schema ...\" for every error that is shown, and for no other, in the order of the alternatives, nested ones after the one they belong to. Wherever a part of the configuration meets none of the alternatives of the schema (oneOf, anyOf), every alternative is named with an error; the first alternative with its own first reason; and if each alternative fails for exactly one reason, each is named with its own reason and none is missing. (Otherwise alternatives are named with the reasons of others.)", "quantifier": "every schema made of the keywords of the backends, every configuration, errors nested to any depth", "why_tests_cant": "all schemas, documents and trees of errors", "anchors": ["netjsonconfig/exceptions.py:_list_errors", "netjsonconfig/exceptions.py:NetJsonConfigException.__str__", "netjsonconfig/exceptions.py:ValidationError", "netjsonconfig/exceptions.py:ParseError", "netjsonconfig/backends/base/backend.py:validate"]}
{"id": "C95", "title": "Other members of a configuration mean nothing; json() can be loaded back", "statement": "Members of a configuration under keys that the schema of the backend does not define (metadata such as \"type\", an owner, a revision) have no effect: two configurations with the same other members, in the same order, get the same answer, or the same exception, from validate(), render(), generate() and json() (which shows the members), after every history of such calls. For the OpenWrt and OpenWisp backends this is about values that are not lists; a list under such a key is a UCI package. Consequently the text that json() returns, loaded in place of the configuration, makes an object with the same answers, for every backend (for OpenWrt: if there is no package called \"type\").", "quantifier": "every backend, every pair of configurations with the same members of the schema, valid or not, every history; every key and value outside of the schema", "why_tests_cant": "all extra keys, values and histories", "anchors": ["netjsonconfig/backends/base/backend.py:json", "netjsonconfig/backends/base/backend.py:validate", "netjsonconfig/backends/base/backend.py:render", "netjsonconfig/backends/base/backend.py:generate", "netjsonconfig/backends/openwrt/converters/default.py:Default.to_intermediate", "netjsonconfig/backends/openwrt/schema.py:schema"]}
{"id": "C96", "title": "The command line: json, generate and write, and its output given back", "statement": "The netjsonconfig program gives what the library gives, for all five methods: --method generate prints the archive of the configuration loaded with its templates and environment; --method json prints the text of json() (with validate=0: also of an invalid configuration); --method write name=N path=P prints nothing and leaves exactly the archive in the file named by P and N and all other files as they were; no other method touches a file. An invalid configuration ends with status 4, a wrong argument with status 5. What --method json printed, given to the program as its configuration, directly or in a file, without the templates, makes every method with every argument end as with the original configuration and templates: the same output, files and status, if no variable of the environment occurs in what was printed.", "quantifier": "every configuration and list of templates, in texts or files, every environment, method and arguments, valid or not", "why_tests_cant": "all inputs and environments of the program", "anchors": ["bin/netjsonconfig:print_output", "bin/netjsonconfig:parse_method_arguments", "netjsonconfig/backends/base/backend.py:json", "netjsonconfig/backends/base/backend.py:write", "netjsonconfig/backends/base/backend.py:generate"]}
{"id": "C97", "title": "Variables replaced by the object or beforehand", "statement": "Variables are replaced after templates are merged. An object made of templates and a configuration with variables is the same, or the constructor raises the same exception, as the object made of the texts in which the caller has replaced the variables beforehand, if no two different texts inside of lists become equal by the replacement; without texts inside of lists this holds for all values. (Otherwise elements of lists that get the same name are not merged.)", "quantifier": "every backend class, any number of templates, every configuration and context whose variables can be replaced", "why_tests_cant": "all data, nested to any depth, and all values of variables", "anchors": ["netjsonconfig/backends/base/backend.py:_merge_config", "netjsonconfig/backends/base/backend.py:_evaluate_vars", "netjsonconfig/utils.py:merge_config", "netjsonconfig/utils.py:merge_list", "netjsonconfig/utils.py:evaluate_vars"]}
{"id": "C98", "title": "Files of the configuration and files of templates", "statement": "When several templates and the configuration define a file with the same path, the one in the archive is the last one of the last of them that has the path, and it is the only one with this path, if no earlier template has a file that is equal to it. The files of an object are those of its templates and configuration, one after the other, without those that are equal to an earlier one. (A file that equals one of an earlier template is skipped, so that a configuration does not override a template that changed the file in between.)", "quantifier": "every backend class, any number of templates with any files, every path", "why_tests_cant": "all templates, files and paths", "anchors": ["netjsonconfig/backends/base/backend.py:_deduplicate_files", "netjsonconfig/backends/base/backend.py:_merge_config", "netjsonconfig/utils.py:merge_list", "netjsonconfig/backends/base/backend.py:generate", "netjsonconfig/backends/base/backend.py:_process_files"]}
{"id": "C99", "title": "The wireless package says what the radios and Wi-Fi interfaces say", "statement": "For every valid configuration, the wireless package that the OpenWrt backend generates has exactly one section for each radio, in their order, followed by exactly one for each interface with a wireless object, in their order. The options of a section are exactly those determined by its object: for a radio its options with channel, mode and band derived as documented; for an interface mode, device, interface name, the options of its encryption, the networks (the bridges it is a member of) and the remaining ones, without roaming options when roaming is off. The names of the sections must differ, as otherwise two of them become one.", "quantifier": "every valid configuration with any number of radios and interfaces, both syntaxes (DSA or not)", "why_tests_cant": "all configurations", "anchors": ["netjsonconfig/backends/openwrt/converters/radios.py:Radios", "netjsonconfig/backends/openwrt/converters/wireless.py:Wireless", "netjsonconfig/backends/openwrt/schema.py:schema", "netjsonconfig/backends/base/backend.py:to_intermediate"]}
{"id": "C100", "title": "The network package says what routes, rules, switches, peers and interfaces say", "statement": "For every valid configuration without a network package of its own, the network package that the OpenWrt backend generates is made of one section for the ULA prefix (if there is one), the sections of the interfaces, one for each route, one for each policy rule, one for each switch followed by one for each of its VLANs, and one for each WireGuard peer, in this order and in the order of the lists. Each section has exactly the options determined by its object: a route the target, netmask, gateway, interface and metric of the family of its destination; a rule the type of its family; unnamed ones are numbered. No object is lost and none is added, as long as the names of the sections differ.", "quantifier": "every valid configuration with any number of objects, both syntaxes (DSA or not)", "why_tests_cant": "all configurations", "anchors": ["netjsonconfig/backends/openwrt/converters/general.py", "netjsonconfig/backends/openwrt/converters/interfaces.py:Interfaces", "netjsonconfig/backends/openwrt/converters/routes.py:Routes", "netjsonconfig/backends/openwrt/converters/rules.py:Rules", "netjsonconfig/backends/openwrt/converters/switch.py:Switch", "netjsonconfig/backends/openwrt/converters/wireguard_peers.py:WireguardPeers", "netjsonconfig/backends/base/backend.py:to_intermediate"]}
{"id": "C101", "title": "The system package says what the general settings, NTP and the LEDs say", "statement": "For every valid configuration without a system package of its own, the system package that the OpenWrt backend generates is made of one section for the general settings (if there are any besides the ULA prefix), one for the NTP settings (if there are any) and one for each LED, in this order. The section of the general settings has their options and a host name, which is OpenWRT when none is given; the time zone is given by its name and by its POSIX text. The sections of NTP and the LEDs have exactly the options of their objects; a LED without identifier is called led_ and its name in lower case. No object is lost and none is added, as long as the names of the sections differ.", "quantifier": "every valid configuration with any general settings, any NTP settings and any number of LEDs", "why_tests_cant": "all configurations", "anchors": ["netjsonconfig/backends/openwrt/converters/general.py:General", "netjsonconfig/backends/openwrt/converters/ntp.py:Ntp", "netjsonconfig/backends/openwrt/converters/led.py:Led", "netjsonconfig/backends/openwrt/timezones.py:timezones", "netjsonconfig/backends/base/backend.py:to_intermediate"]}
{"id": "C102", "title": "The OpenVPN package says what the VPNs say", "statement": "For every valid configuration, the openvpn package that the OpenWrt backend generates has exactly one section for each VPN, in their order. Its options are exactly those determined by the object: it is enabled unless it is disabled, remote servers and data ciphers are written as texts, TLS ciphers become a list, a TLS key becomes a reference to its file, options that have no effect (an empty text, a status version without status, a fragment of 0) are left out, and all the others are the object's own.", "quantifier": "every valid configuration with any number of OpenVPN servers and clients", "why_tests_cant": "all configurations", "anchors": ["netjsonconfig/backends/openwrt/converters/openvpn.py:OpenVpn", "netjsonconfig/backends/openvpn/converters.py:OpenVpn", "netjsonconfig/backends/openwrt/schema.py:schema", "netjsonconfig/backends/base/backend.py:to_intermediate"]}
{"id": "C103", "title": "The ZeroTier package says what the VPNs and their networks say", "statement": "For every valid configuration, the zerotier package that the OpenWrt backend generates has for each VPN, in their order, one section followed by one for each of its networks, in their order. The section of a VPN lists the identifiers of its networks to join, is enabled unless the VPN is disabled, has the paths of the configuration and of the local settings (with their defaults) and its other options; the section of a network is called like its interface and has exactly its options. Nothing is lost or added.", "quantifier": "every valid configuration with any number of ZeroTier VPNs with any number of networks", "why_tests_cant": "all configurations", "anchors": ["netjsonconfig/backends/openwrt/converters/zerotier.py:ZeroTier", "netjsonconfig/backends/zerotier/converters.py:ZeroTier", "netjsonconfig/backends/openwrt/schema.py:schema", "netjsonconfig/backends/base/backend.py:to_intermediate"]}
{"id": "C104", "title": "Additional packages: which there are and what they say", "statement": "Besides system, network, wireless, openvpn and zerotier, the packages that the OpenWrt backend generates for a valid configuration are exactly those the configuration lists under a key that the backend does not define. Such a package has exactly one section for each object of the list with a config_name, in their order: its type is the config_name, its name the config_value, or the type and its number when there is none; its options are the other members of the object. Keys the backend defines and values that are no lists make no package.", "quantifier": "every valid configuration, every name of a package and every list of objects and other values", "why_tests_cant": "all configurations and keys", "anchors": ["netjsonconfig/backends/openwrt/converters/default.py:Default", "netjsonconfig/backends/base/backend.py:to_intermediate", "netjsonconfig/backends/openwrt/schema.py:schema"]}
{"id": "C105", "title": "Packages listed by the configuration itself extend those of the converters", "statement": "A list that a valid configuration has under network, system or wireless adds sections to the package of that name: the package is made of the sections that C100, C101 and C99 describe, whatever the configuration lists, followed by one section for each object of the list with a config_name, in their order, with exactly its options. Nothing is lost and none of the other sections changes, as long as the names of the sections differ.", "quantifier": "every valid configuration, with and without packages of its own", "why_tests_cant": "all configurations and lists", "anchors": ["netjsonconfig/backends/openwrt/converters/default.py:Default", "netjsonconfig/backends/base/backend.py:to_intermediate", "netjsonconfig/utils.py:merge_list"]}

CLAIMS = {}
def c(i, status, theorems, note=""):
    CLAIMS[i] = (status, theorems.split(), note)

c("C01", "proved", "C01_merge_config_lookup")
c("C02", "proved", "C02_config_scalar_wins C02_template_shows_through")
c("C03", "proved", "C03_conflict_exactly C03_conflict_exactly_no_ids", "unhashable identifiers raise TypeError instead: hypothesis hashable")
c("C04", "proved", "C04_empty_config C04_empty_template")
c("C05", "proved", "C05_idempotent C05_needs_distinct", "needs distinct scalar identifiers inside each list of the config; the counterexample without is proved")
c("C06", "proved", "C06_merge_list_order C06_merge_list_general")
c("C07", "proved", "C07_no_element_lost C07_needs_distinct")
c("C08", "proved", "C08_no_duplicates C08_nothing_new")
c("C09", "proved", "C09_chain C09_last_definition_wins C09_undefined_stays_undefined")
c("C10", "proved", "C10_associative C10_needs_no_dict_over_scalar", "needs that no dict of t3 meets a scalar of t2; the counterexample without is proved")
c("C12", "proved", "C12_key_order C12_key_order_chain")

c("C11", "proved", "C11_no_sharing C11_evaluation_writes_own_objects C11_same_values", "ownership model; C11_same_values links it to the plain model")
c("C13", "proved", "C13_only_strings C13_fails_only_for_a_string")
c("C14", "proved", "C14_unknown_unchanged C14_plain_unchanged")
c("C15", "proved", "C15_literal_simultaneous C15_every_text C15_value_text C15_needs_brace_free C15_needs_backslash_free C15_needs_no_leftover_braces")
c("C16", "proved", "C16_space_irrelevant")
c("C17", "proved", "C17_no_context C17_irrelevant_context")
c("C18", "proved", "C18_idempotent C18_needs_brace_free")

c("C19", "proved", "C19_path_stays_below C19_validated_config")
c("C20", "proved", "C20_literal_paths C20_paths_with_variables")
c("C21", "proved", "C21_one_file_per_path C21_idempotent")
c("C22", "proved", "C22_complete_iff_ascii C22_prefix C22_needs_ascii")
c("C23", "proved", "C23_member_names_safe", "files given in the configuration; files generated by converters are C70")
c("C24", "proved", "C24_exact_section C24_no_files C24_needs_no_outer_line_breaks")
c("C25", "proved", "C25_octal_mode C25_default_mode")

c("C26", "proved", "C26_repeatable C26_repeatable_keeping", "holds when the configuration left behind by the first call is valid; a concrete OpenVPN configuration for which it is not valid is C70")
c("C27", "proved", "C27_json_unchanged C27_json_other_keys")
c("C28", "proved", "C28_converted_once")
c("C29", "proved", "C29_files_appended C29_no_files")
c("C31", "proved", "C31_nothing_given C31_bad_config C31_bad_templates C31_bad_template C31_config_used")
c("C32", "proved", "C32_intermediate_kept C32_render_of_parsed")
c("C55", "proved", "C55_primary_vlan C55_no_interfaces")
c("C56", "proved", "C56_check C56_no_radios C56_missing_protocol")
c("C69", "proved", "C69_after_failed_conversion")

c("C30", "proved", "C30_one_member_per_package C30_generate", "clean ASCII data")
c("C33", "proved", "C33_round_trip C33_sorting_keeps C33_sorting_sorts C33_needs_no_quotes C33_needs_no_blank_runs C33_needs_no_line_breaks")
c("C34", "proved", "C34_exact_lines C34_no_packages")
c("C35", "proved", "C35_hidden_options C35_booleans")
c("C36", "proved", "C36_normal_form")
c("C37", "proved", "C37_archive_as_text C37_needs_ascii")
c("C38", "proved", "C38_parsed C38_layout_irrelevant")

c("C39", "proved", "C39_round_trip")
c("C40", "proved", "C40_round_trip")
c("C41", "proved", "C41_round_trip C41_system_block C41_ula")
c("C42", "proved", "C42_block C42_round_trip C42_ipv4 C42_netmask C42_needs_hostBits")
c("C43", "proved", "C43_family C43_refused C43_round_trip")
c("C44", "proved", "C44_round_trip C44_one_switch C44_needs_one_switch C44_needs_vlan")
c("C45", "proved", "C45_sections C45_names_distinct C45_needs_condition C45_round_trip")
c("C46", "proved", "C46_band C46_explicit_band C46_hwmode C46_total C46_schema C46_needs_agreement", "the schema is represented by the predicate ValidRadio, which every radio of a configuration accepted by the schema meets (C46_schema); where it leaves band and hwmode open they must agree with the band (the counterexample without is proved)")
c("C47", "proved", "C47_round_trip C47_needs_not_b C47_needs_width C47_needs_mac80211", "the exceptions are proved as counterexamples")
c("C52", "proved", "C52_packages C52_round_trip")
c("C53", "proved", "C53_type_cast C53_failure C53_integers")
c("C54", "proved", "C54_uciName C54_sections")
c("C49", "proved", "C49_no_leak C49_same", "options written at the top level of the wireless object are not part of the encryption object")
c("C50", "proved", "C50_roaming")
c("C51", "proved", "C51_bridges C51_explicit C51_tracked C51_back wireless_sections", "bridges as seen in the network sections made before the Wi-Fi ones")
c("C48", "proved", "C48_round_trip C48_needs_wps_settings C48_needs_no_wps_settings C48_needs_wep_prefix C48_needs_acct_secret C48_needs_wpa_cipher", "for objects meeting EncOK/WifiOK; each exception has a counterexample theorem")
c("C57", "proved", "C57_round_trip C57_needs_no_remote C57_needs_cipher_name C57_needs_one_line C57_needs_no_blanks", "for VPNs meeting VpnOK; each exception has a counterexample theorem")
c("C58", "proved", "C58_ciphers C57_round_trip")
c("C59", "proved", "C59_options C59_exact_lines C59_remotes")
c("C60", "proved", "C60_inline C60_reference C60_files C60_needs_distinct_paths")
c("C61", "proved", "C61_client C61_returns C61_needs_cert_type")
c("C62", "proved", "C62_interface C62_render C62_needs_address C62_needs_one_line", "for tunnels with an address and values of one line; both limits have a counterexample theorem")
c("C63", "proved", "C63_wireguard C63_vxlan")
c("C72", "proved", "C72_members C72_openvpn C72_wireguard C72_archive_as_text C72_needs_names")
c("C73", "proved", "C73_interfaces C73_needs_dots C73_needs_sections C73_needs_devices C73_needs_names C73_needs_one_group C73_needs_no_ageing C73_needs_bridge_name C73_needs_reserved", "for lists of interfaces with one group of addresses each and names that do not collide; every limit has a counterexample theorem")
c("C68", "proved", "C68_accepted C68_arguments C68_render C68_validate C68_missing C68_refused", "argparse and message texts are not modelled")
c("C64","proved","C64_devicemap C64_networks_listed C64_sections C64_back C64_twice C64_needs_one_entry C64_network_first C64_networks_required C64_path_not_validated C64_auto_client","The way back is proved for one entry: with several, the networks of the others are added to the first (C64_needs_one_entry); every network comes back twice, which is what the code does. C64_path_not_validated: the map's path is added after validation.")
c("C65", "proved", "C65_radios C65_exact_lines C65_same_meaning C65_one_member_per_package C65_needs_no_package_word C65_archive C65_scripts_in_archive C65_context C65_scripts C65_not_read_back C65_generate_again C65_needs_distinct_paths", "the texts of the scripts are parameters; generating again: provided the object passes validate()")
c("C67", "proved", "C67_groups C67_interfaces C67_how_many C67_names_differ C67_needs_distinct", "C67_needs_distinct: the second section of eth0 and the interface eth0.2 share a name and are merged")
c("C77", "proved", "C77_valid C77_written C77_read C77_clock_kept C77_round_trip C77_needs_zonename C77_unknown C77_needs_order timezones_good otherZones_good", "the tables of the code (Zones), transcribed by tools/schema_gen.py; one entry is written as a set of two texts, so there are two tables, depending on the hashes of the process: the theorems hold of both (timezones_good, otherZones_good), C77_valid of the order written; C77_needs_order: in the other order a zone that exists is refused; the reversed table is the one the loop of the code builds, characterised by induction. C77_unknown: KeyError, also for strings that OpenWrt knows.")
c("C78", "proved", "C78_options C78_needs_members", "the value of every option of every block, for interfaces of all types; together with C67 (how many sections, their groups of addresses and names)")
c("C74", "proved", "C74_vlans")
c("C71", "proved", "C71_round_trip C71_needs_names C71_needs_custom C71_needs_wifiNetworks", "without ZeroTier, whose round trip is C64; wireless interfaces have no addresses of their own (they may be members of bridges), and come back as in C48; C71_needs_wifiNetworks: a network that is named although the interface is a member of a bridge is lost if it is that bridge; OpenVPN comes back as in C79; what comes back is validated by the constructor. C71_needs_names: sections of equal names are merged. C71_needs_custom: custom blocks in the package network come back as WireGuard peers.")
c("C75", "proved", "C75_json C75_tojson C75_constructor C75_text_or_dict C75_backends", "numbers that are not integers and lone surrogates are not modelled")
c("C76", "proved", "C76_round_trip C76_archive C76_sample C76_needs_no_comments C76_needs_one_line", "C76_needs_no_comments: what looks like a comment inside a text is cut out, silently, or makes the parser fail")
c("C66", "proved", "C66_render C66_generate C66_needs_general_id C66_needs_globals_id C66_needs_ntp_id C66_needs_led_id C66_needs_route_name C66_needs_rule_name C66_needs_switch_id C66_needs_switch_vlan_id C66_needs_destination C66_needs_custom C66_needs_openvpn C66_needs_wireguard C66_needs_modem C66_needs_vxlan C66_needs_mask C66_needs_ipaddr C66_needs_ip6addr C66_needs_address_name C66_needs_filtering C66_needs_vlan C66_needs_bridge C66_needs_wifi C66_needs_monitor C66_needs_wifi_id C66_needs_encryption_name C66_needs_encryption_network validSample_tame validSample_wf validSample_valid validSample_renders schema_merged schema_keys schema_types schema_known owValidate_depth", "the schema is transcribed as data (tools/schema_gen.py) and schema_merged evaluates its assembly; lists or objects inside `ports` of an interface that the schema does not describe are not modelled as errors")
c("C79", "proved", "C79_round_trip sample_uci_vpn C79_needs_bridge", "tls_auth of the form path direction (inline keys become files: C60); a parameter of server_bridge that is the text 1 comes back empty (C79_needs_bridge)")
c("C80", "proved", "C80_validate C80_reading C80_sample schema_shapes owisp_merged openvpn_schema vxlan_schema", "the regular expressions of the patterns are transcribed by hand (Schema.lean, patterns); what it means that they match is specified; IPv6 addresses are read by a parameter; numbers that are not integers are not modelled")
c("C81", "proved", "C81_openvpn C81_wireguard C81_vxlan C81_zerotier C81_needs_remote C81_needs_address", "the exceptions the two needs-theorems exhibit are conditions of the theorems (NoServerRemote, HasAddress)")
c("C70", "proved", "C70_member_names C70_stays_below names_sample_archived C70_needs_package_names C70_needs_key_path C70_needs_map_path", "first generate() of an object; the needs-theorems exhibit configurations accepted by validate() whose archives leave the directory")
c("C82", "proved", "C82_no_forged_lines C82_lines_of_data C82_generate C82_members_of_data C82_constructed valid_env_wide names_sample_clean top_sample_archived C82_needs_no_backslash C82_needs_unbroken_values C82_needs_unbroken_lines C82_needs_unbroken_key", "Wide NoBreak env: case conversion, repr, time zones and IPv6 texts make no line breaks (shown of the environment of the examples, with the real table of time zones). C82_constructed: from the arguments of the constructor (configuration, templates, variables); a backslash in a variable makes line breaks (C82_needs_no_backslash)")
c("C83", "proved", "C83_validate C83_render C83_generate C83_schema flipped_same flipped_other C83_needs_tidy", "first call on an object made from the configuration itself, with the schema of the OpenWrt backend; the exceptions need not be the same (which of two broken packages is met first depends on the order); VLANs of a bridge in the older syntax are an option with an object as its value and are excluded")
c("C84", "proved", "C84_commute C84_render C84_any_order tpl_reordered tpl_constructed C84_needs_disjoint", "C84_any_order: every permutation of templates with, two by two, no key in common is a reordering")
c("C85", "proved", "C85_blocks C85_file elsewhere_agree elsewhere_archived C85_needs_routes", "both first renderings (archives) succeed; C85_file: for configurations as in C82; names of the packages' files only, files of the section `files` are separate")
c("C86", "proved", "C86_scripts C86_archive C86_sample C86_needs_one_line C86_not_quoted", "the templates with their texts are modelled; the burst rates (0.187 * X, a floating point product) are a parameter; the members hold the texts as bytes, cut as in C22 when not ASCII")
c("C87", "proved", "C87_render C87_generate C87_radios C87_sample", "`Tame` as in C66 (each clause necessary there, `PropsValidNeeds`); the time zone table knows the names of the schema")
c("C88", "proved", "C88_text C88_archive C88_valid C88_needs_key_path C88_wireguard_escapes ovpn_fits", "the first rendering; values that are no texts by the model's repr parameter; `FileFits`: lines without line break and four spaces in a row, at least one, ASCII (C22); the files after deduplication (C21)")
c("C89", "proved", "C89_openvpn C89_wireguard C89_zerotier C89_samples", "first call on an object made from the configuration itself, with the schemas of the backends; the exceptions of the conversion need not be the same; the other exceptions are")
c("C90", "proved", "C90_written C90_failed C90_interrupted C90_path C90_needs_no_interruption C90_needs_path", "the file system is a map from paths to contents, and write() is the list of its operations; the bytes of the archive reach the file in one operation. C90_needs_no_interruption: the write is not atomic, the old archive is lost if it is interrupted; C90_needs_path: an empty path is the root directory")
c("C91", "proved", "C91_openwrt C91_openwrt_json C91_openvpn C91_wireguard C91_vxlan C91_zerotier C91_openwisp C91_openwisp_json C91_answers C91_json C91_invalid C91_needs_paths C91_needs_render C91_needs_not_json", "C91_answers, C91_json and C91_invalid are about any class; the conditions are needed: an inline key next to a CA whose path has other characters makes the second render() fail (C91_needs_paths), and after a conversion that raises the next call returns a partial text (C91_needs_render, C69). OpenWisp, whose generate() adds scripts to the files, is covered by C91_openwisp; C65_needs_distinct_paths shows that the paths are to be distinct")
c("C92", "proved", "C92_auto_client C92_renders C92_sample C92_sample_renders C92_needs_distinct C92_needs_host C92_needs_path C92_needs_valid", "HostOk, PairOk and distinct paths are about the arguments; each is needed by evaluation (the same file twice, a host with an underscore, a path with a blank), and so is a valid server (C92_needs_valid: an ns_cert_type outside of the schema raises KeyError). C92_renders asks in addition that keys of objects are not repeated (WF), as in every Python dict")
c("C93", "proved", "C93_wireguard C93_vxlan C93_zerotier C93_sample C93_sample_vxlan C93_sample_zerotier C93_needs_args C93_needs_vni C93_needs_options", "findings: the defaults of public_key, server_ip_network and server are refused, and so is the default VNI 0, which the VXLAN backend itself accepts (C93_needs_vni); client_options that contain id make two networks one (C93_needs_options)")
c("C94", "proved", "C94_entries C94_order C94_text C94_details C94_context C94_named C94_own C94_parse_error C94_sample C94_sample_own C94_needs_one_reason", "the messages of the library and the texts of schemas are parameters; the errors of the library (iter_errors, in order, with context) are modelled for the keywords of the schemas. Finding: the i-th alternative is paired with the i-th error of all alternatives, so that an interface of an unknown type is told that a VXLAN interface needs a user name (C94_needs_one_reason); and str(ParseError(...)) raises AttributeError (C94_parse_error)")
c("C95", "proved", "C95_same C95_add C95_json C95_openwisp C95_sample C95_needs_no_list", "`meaning` keeps the members of the schema's keys, and for OpenWrt and OpenWisp also lists; of the OpenWisp backend validate and render, not generate; two documents of json() are compared only as to whether there is one. C95_json: the configuration has no repeated keys (WF), as every Python dict")
c("C96", "proved", "C96_extends C96_only_write C96_generate C96_json C96_write C96_arguments C96_again C96_sample_json C96_sample C96_sample_arguments C96_sample_render C96_needs_settled C96_needs_text", "json.dumps with keyword arguments is a parameter (without: jsonDumps, C75); a file that cannot be written is not modelled; C96_again is about the backends of backendsWithSchema (not OpenWisp) and asks that no text of the printed configuration contains a placeholder of an environment variable (C96_needs_settled: otherwise it is evaluated again); C96_write asks for names and paths other than True, False, 1 and 0 (C96_needs_text: name=1 writes True.tar.gz, path=1 raises AttributeError)")
c("C97", "proved", "C97_beforehand C97_no_lists C97_sample C97_needs_different", "object identity inside of lists (sh) is asked to be the same before and after the replacement, which is so when no object occurs twice; finding (C97_needs_different): a template for the tunnel {{N}} and a configuration of the tunnel a, with N=a, give two tunnels called a")
c("C98", "proved", "C98_layers C98_last_wins C98_archive C98_archive_keeping C98_sample C98_sample_archive C98_needs_new", "variables: without context (with one, see C97); files are dictionaries without the identifiers name, config_value, id (which the schema does not define for files), no file object is used twice; C98_archive asks that the conversion makes no other file of that path (key files of OpenVPN, device maps of ZeroTier). Finding (C98_needs_new): with templates that give /etc/banner the contents 1 and then 2, a configuration that gives it 1 gets 2")
c("C99", "proved", "C99_wireless radio_valid wifi_sample_made C99_needs_names", "OpenWrt backend with its real schema; the configuration has no package wireless of its own (which the default converter would merge), the names of the sections of the Wi-Fi interfaces are texts, the encryption objects have no option .name and the names of the sections differ. Finding (C99_needs_names): validate accepts a Wi-Fi interface whose id is the name of a radio, and the radio is lost")
c("C100", "proved", "C100_network net_sample_made C100_needs_names", "OpenWrt backend with its real schema; the configuration has no package network of its own; addresses of interfaces have none of the keys .name, .type, ipaddr, ip6addr and bridge_members is a list (as in C78, which says what the sections of the interfaces are); the package is the list of all sections when their names differ. Finding (C100_needs_names): validate accepts a route whose name is that of an interface, and the interface turns into a route")
c("C101", "proved", "C101_system sys_sample_made C101_needs_names", "OpenWrt backend with its real schema; the configuration has no package system of its own; the lookup of time zones and the lower case are arguments (the table is SchemaData.timezones); the package is the list of all sections when their names differ. Finding (C101_needs_names): validate accepts a LED whose id is ntp, and the section of the NTP settings turns into that LED")
c("C102", "proved", "C102_openvpn extra_sample_made", "OpenWrt backend with its real schema (a configuration its validation accepts and its converters convert); about the intermediate form, which the renderer turns into text; the printing of numbers that are no integers is an argument. No hypothesis on names: sections are listed, not merged")
c("C103", "proved", "C103_zerotier extra_sample_made", "OpenWrt backend with its real schema; about the intermediate form, as C102; no hypothesis on names")
c("C104", "proved", "C104_packages extra_sample_made", "OpenWrt backend with its real schema; about the intermediate form, as C102; what lists under network, system and wireless add to these packages is C105")
c("C105", "proved", "C105_network C105_system C105_wireless own_sample_made C105_needs_names", "OpenWrt backend with its real schema; hypotheses on addresses, bridge_members and the names of Wi-Fi sections as in C99 and C100. Finding (C105_needs_names): a listed section with the name of a section of a converter replaces its type and adds its options")

{
 "claims": [
  {
   "property": "C01",
   "status": "proved",
   "theorems": [
    "NJ.C01_merge_config_lookup"
   ],
   "note": ""
  },
  {
   "property": "C02",
   "status": "proved",
   "theorems": [
    "NJ.C02_config_scalar_wins",
    "NJ.C02_template_shows_through"
   ],
   "note": ""
  },
  {
   "property": "C03",
   "status": "proved",
   "theorems": [
    "NJ.C03_conflict_exactly",
    "NJ.C03_conflict_exactly_no_ids"
   ],
   "note": "unhashable identifiers raise TypeError instead: hypothesis hashable"
  },
  {
   "property": "C04",
   "status": "proved",
   "theorems": [
    "NJ.C04_empty_config",
    "NJ.C04_empty_template"
   ],
   "note": ""
  },
  {
   "property": "C05",
   "status": "proved",
   "theorems": [
    "NJ.C05_idempotent",
    "NJ.C05_needs_distinct"
   ],
   "note": "needs distinct scalar identifiers inside each list of the config; the counterexample without is proved"
  },
  {
   "property": "C06",
   "status": "proved",
   "theorems": [
    "NJ.C06_merge_list_order",
    "NJ.C06_merge_list_general"
   ],
   "note": ""
  },
  {
   "property": "C07",
   "status": "proved",
   "theorems": [
    "NJ.C07_no_element_lost",
    "NJ.C07_needs_distinct"
   ],
   "note": ""
  },
  {
   "property": "C08",
   "status": "proved",
   "theorems": [
    "NJ.C08_no_duplicates",
    "NJ.C08_nothing_new"
   ],
   "note": ""
  },
  {
   "property": "C09",
   "status": "proved",
   "theorems": [
    "NJ.C09_chain",
    "NJ.C09_last_definition_wins",
    "NJ.C09_undefined_stays_undefined"
   ],
   "note": ""
  },
  {
   "property": "C10",
   "status": "proved",
   "theorems": [
    "NJ.C10_associative",
    "NJ.C10_needs_no_dict_over_scalar"
   ],
   "note": "needs that no dict of t3 meets a scalar of t2; the counterexample without is proved"
  },
  {
   "property": "C11",
   "status": "proved",
   "theorems": [
    "NJ.C11_no_sharing",
    "NJ.C11_evaluation_writes_own_objects",
    "NJ.C11_same_values"
   ],
   "note": "ownership model; C11_same_values links it to the plain model"
  },
  {
   "property": "C12",
   "status": "proved",
   "theorems": [
    "NJ.C12_key_order",
    "NJ.C12_key_order_chain"
   ],
   "note": ""
  },
  {
   "property": "C13",
   "status": "proved",
   "theorems": [
    "NJ.C13_only_strings",
    "NJ.C13_fails_only_for_a_string"
   ],
   "note": ""
  },
  {
   "property": "C14",
   "status": "proved",
   "theorems": [
    "NJ.C14_unknown_unchanged",
    "NJ.C14_plain_unchanged"
   ],
   "note": ""
  },
  {
   "property": "C15",
   "status": "proved",
   "theorems": [
    "NJ.C15_literal_simultaneous",
    "NJ.C15_every_text",
    "NJ.C15_value_text",
    "NJ.C15_needs_brace_free",
    "NJ.C15_needs_backslash_free",
    "NJ.C15_needs_no_leftover_braces"
   ],
   "note": ""
  },
  {
   "property": "C16",
   "status": "proved",
   "theorems": [
    "NJ.C16_space_irrelevant"
   ],
   "note": ""
  },
  {
   "property": "C17",
   "status": "proved",
   "theorems": [
    "NJ.C17_no_context",
    "NJ.C17_irrelevant_context"
   ],
   "note": ""
  },
  {
   "property": "C18",
   "status": "proved",
   "theorems": [
    "NJ.C18_idempotent",
    "NJ.C18_needs_brace_free"
   ],
   "note": ""
  },
  {
   "property": "C19",
   "status": "proved",
   "theorems": [
    "NJ.C19_path_stays_below",
    "NJ.C19_validated_config"
   ],
   "note": ""
  },
  {
   "property": "C20",
   "status": "proved",
   "theorems": [
    "NJ.C20_literal_paths",
    "NJ.C20_paths_with_variables"
   ],
   "note": ""
  },
  {
   "property": "C21",
   "status": "proved",
   "theorems": [
    "NJ.C21_one_file_per_path",
    "NJ.C21_idempotent"
   ],
   "note": ""
  },
  {
   "property": "C22",
   "status": "proved",
   "theorems": [
    "NJ.C22_complete_iff_ascii",
    "NJ.C22_prefix",
    "NJ.C22_needs_ascii"
   ],
   "note": ""
  },
  {
   "property": "C23",
   "status": "proved",
   "theorems": [
    "NJ.C23_member_names_safe"
   ],
   "note": "files given in the configuration; files generated by converters are C70"
  },
  {
   "property": "C24",
   "status": "proved",
   "theorems": [
    "NJ.C24_exact_section",
    "NJ.C24_no_files",
    "NJ.C24_needs_no_outer_line_breaks"
   ],
   "note": ""
  },
  {
   "property": "C25",
   "status": "proved",
   "theorems": [
    "NJ.C25_octal_mode",
    "NJ.C25_default_mode"
   ],
   "note": ""
  },
  {
   "property": "C26",
   "status": "proved",
   "theorems": [
    "NJ.C26_repeatable",
    "NJ.C26_repeatable_keeping"
   ],
   "note": "holds when the configuration left behind by the first call is valid; a concrete OpenVPN configuration for which it is not valid is C70"
  },
  {
   "property": "C27",
   "status": "proved",
   "theorems": [
    "NJ.C27_json_unchanged",
    "NJ.C27_json_other_keys"
   ],
   "note": ""
  },
  {
   "property": "C28",
   "status": "proved",
   "theorems": [
    "NJ.C28_converted_once"
   ],
   "note": ""
  },
  {
   "property": "C29",
   "status": "proved",
   "theorems": [
    "NJ.C29_files_appended",
    "NJ.C29_no_files"
   ],
   "note": ""
  },
  {
   "property": "C30",
   "status": "proved",
   "theorems": [
    "NJ.C30_one_member_per_package",
    "NJ.C30_generate"
   ],
   "note": "clean ASCII data"
  },
  {
   "property": "C31",
   "status": "proved",
   "theorems": [
    "NJ.C31_nothing_given",
    "NJ.C31_bad_config",
    "NJ.C31_bad_templates",
    "NJ.C31_bad_template",
    "NJ.C31_config_used"
   ],
   "note": ""
  },
  {
   "property": "C32",
   "status": "proved",
   "theorems": [
    "NJ.C32_intermediate_kept",
    "NJ.C32_render_of_parsed"
   ],
   "note": ""
  },
  {
   "property": "C33",
   "status": "proved",
   "theorems": [
    "NJ.C33_round_trip",
    "NJ.C33_sorting_keeps",
    "NJ.C33_sorting_sorts",
    "NJ.C33_needs_no_quotes",
    "NJ.C33_needs_no_blank_runs",
    "NJ.C33_needs_no_line_breaks"
   ],
   "note": ""
  },
  {
   "property": "C34",
   "status": "proved",
   "theorems": [
    "NJ.C34_exact_lines",
    "NJ.C34_no_packages"
   ],
   "note": ""
  },
  {
   "property": "C35",
   "status": "proved",
   "theorems": [
    "NJ.C35_hidden_options",
    "NJ.C35_booleans"
   ],
   "note": ""
  },
  {
   "property": "C36",
   "status": "proved",
   "theorems": [
    "NJ.C36_normal_form"
   ],
   "note": ""
  },
  {
   "property": "C37",
   "status": "proved",
   "theorems": [
    "NJ.C37_archive_as_text",
    "NJ.C37_needs_ascii"
   ],
   "note": ""
  },
  {
   "property": "C38",
   "status": "proved",
   "theorems": [
    "NJ.C38_parsed",
    "NJ.C38_layout_irrelevant"
   ],
   "note": ""
  },
  {
   "property": "C39",
   "status": "proved",
   "theorems": [
    "NJ.C39_round_trip"
   ],
   "note": ""
  },
  {
   "property": "C40",
   "status": "proved",
   "theorems": [
    "NJ.C40_round_trip"
   ],
   "note": ""
  },
  {
   "property": "C41",
   "status": "proved",
   "theorems": [
    "NJ.C41_round_trip",
    "NJ.C41_system_block",
    "NJ.C41_ula"
   ],
   "note": ""
  },
  {
   "property": "C42",
   "status": "proved",
   "theorems": [
    "NJ.C42_block",
    "NJ.C42_round_trip",
    "NJ.C42_ipv4",
    "NJ.C42_netmask",
    "NJ.C42_needs_hostBits"
   ],
   "note": ""
  },
  {
   "property": "C43",
   "status": "proved",
   "theorems": [
    "NJ.C43_family",
    "NJ.C43_refused",
    "NJ.C43_round_trip"
   ],
   "note": ""
  },
  {
   "property": "C44",
   "status": "proved",
   "theorems": [
    "NJ.C44_round_trip",
    "NJ.C44_one_switch",
    "NJ.C44_needs_one_switch",
    "NJ.C44_needs_vlan"
   ],
   "note": ""
  },
  {
   "property": "C45",
   "status": "proved",
   "theorems": [
    "NJ.C45_sections",
    "NJ.C45_names_distinct",
    "NJ.C45_needs_condition",
    "NJ.C45_round_trip"
   ],
   "note": ""
  },
  {
   "property": "C46",
   "status": "proved",
   "theorems": [
    "NJ.C46_band",
    "NJ.C46_explicit_band",
    "NJ.C46_hwmode",
    "NJ.C46_total",
    "NJ.C46_schema",
    "NJ.C46_needs_agreement"
   ],
   "note": "the schema is represented by the predicate ValidRadio, which every radio of a configuration accepted by the schema meets (C46_schema); where it leaves band and hwmode open they must agree with the band (the counterexample without is proved)"
  },
  {
   "property": "C47",
   "status": "proved",
   "theorems": [
    "NJ.C47_round_trip",
    "NJ.C47_needs_not_b",
    "NJ.C47_needs_width",
    "NJ.C47_needs_mac80211"
   ],
   "note": "the exceptions are proved as counterexamples"
  },
  {
   "property": "C48",
   "status": "proved",
   "theorems": [
    "NJ.C48_round_trip",
    "NJ.C48_needs_wps_settings",
    "NJ.C48_needs_no_wps_settings",
    "NJ.C48_needs_wep_prefix",
    "NJ.C48_needs_acct_secret",
    "NJ.C48_needs_wpa_cipher"
   ],
   "note": "for objects meeting EncOK/WifiOK; each exception has a counterexample theorem"
  },
  {
   "property": "C49",
   "status": "proved",
   "theorems": [
    "NJ.C49_no_leak",
    "NJ.C49_same"
   ],
   "note": "options written at the top level of the wireless object are not part of the encryption object"
  },
  {
   "property": "C50",
   "status": "proved",
   "theorems": [
    "NJ.C50_roaming"
   ],
   "note": ""
  },
  {
   "property": "C51",
   "status": "proved",
   "theorems": [
    "NJ.C51_bridges",
    "NJ.C51_explicit",
    "NJ.C51_tracked",
    "NJ.C51_back",
    "NJ.wireless_sections"
   ],
   "note": "bridges as seen in the network sections made before the Wi-Fi ones"
  },
  {
   "property": "C52",
   "status": "proved",
   "theorems": [
    "NJ.C52_packages",
    "NJ.C52_round_trip"
   ],
   "note": ""
  },
  {
   "property": "C53",
   "status": "proved",
   "theorems": [
    "NJ.C53_type_cast",
    "NJ.C53_failure",
    "NJ.C53_integers"
   ],
   "note": ""
  },
  {
   "property": "C54",
   "status": "proved",
   "theorems": [
    "NJ.C54_uciName",
    "NJ.C54_sections"
   ],
   "note": ""
  },
  {
   "property": "C55",
   "status": "proved",
   "theorems": [
    "NJ.C55_primary_vlan",
    "NJ.C55_no_interfaces"
   ],
   "note": ""
  },
  {
   "property": "C56",
   "status": "proved",
   "theorems": [
    "NJ.C56_check",
    "NJ.C56_no_radios",
    "NJ.C56_missing_protocol"
   ],
   "note": ""
  },
  {
   "property": "C57",
   "status": "proved",
   "theorems": [
    "NJ.C57_round_trip",
    "NJ.C57_needs_no_remote",
    "NJ.C57_needs_cipher_name",
    "NJ.C57_needs_one_line",
    "NJ.C57_needs_no_blanks"
   ],
   "note": "for VPNs meeting VpnOK; each exception has a counterexample theorem"
  },
  {
   "property": "C58",
   "status": "proved",
   "theorems": [
    "NJ.C58_ciphers",
    "NJ.C57_round_trip"
   ],
   "note": ""
  },
  {
   "property": "C59",
   "status": "proved",
   "theorems": [
    "NJ.C59_options",
    "NJ.C59_exact_lines",
    "NJ.C59_remotes"
   ],
   "note": ""
  },
  {
   "property": "C60",
   "status": "proved",
   "theorems": [
    "NJ.C60_inline",
    "NJ.C60_reference",
    "NJ.C60_files",
    "NJ.C60_needs_distinct_paths"
   ],
   "note": ""
  },
  {
   "property": "C61",
   "status": "proved",
   "theorems": [
    "NJ.C61_client",
    "NJ.C61_returns",
    "NJ.C61_needs_cert_type"
   ],
   "note": ""
  },
  {
   "property": "C62",
   "status": "proved",
   "theorems": [
    "NJ.C62_interface",
    "NJ.C62_render",
    "NJ.C62_needs_address",
    "NJ.C62_needs_one_line"
   ],
   "note": "for tunnels with an address and values of one line; both limits have a counterexample theorem"
  },
  {
   "property": "C63",
   "status": "proved",
   "theorems": [
    "NJ.C63_wireguard",
    "NJ.C63_vxlan"
   ],
   "note": ""
  },
  {
   "property": "C64",
   "status": "proved",
   "theorems": [
    "NJ.C64_devicemap",
    "NJ.C64_networks_listed",
    "NJ.C64_sections",
    "NJ.C64_back",
    "NJ.C64_twice",
    "NJ.C64_needs_one_entry",
    "NJ.C64_network_first",
    "NJ.C64_networks_required",
    "NJ.C64_path_not_validated",
    "NJ.C64_auto_client"
   ],
   "note": "The way back is proved for one entry: with several, the networks of the others are added to the first (C64_needs_one_entry); every network comes back twice, which is what the code does. C64_path_not_validated: the map's path is added after validation."
  },
  {
   "property": "C65",
   "status": "proved",
   "theorems": [
    "NJ.C65_radios",
    "NJ.C65_exact_lines",
    "NJ.C65_same_meaning",
    "NJ.C65_one_member_per_package",
    "NJ.C65_needs_no_package_word",
    "NJ.C65_archive",
    "NJ.C65_scripts_in_archive",
    "NJ.C65_context",
    "NJ.C65_scripts",
    "NJ.C65_not_read_back",
    "NJ.C65_generate_again",
    "NJ.C65_needs_distinct_paths"
   ],
   "note": "the texts of the scripts are parameters; generating again: provided the object passes validate()"
  },
  {
   "property": "C66",
   "status": "proved",
   "theorems": [
    "NJ.C66_render",
    "NJ.C66_generate",
    "NJ.C66_needs_general_id",
    "NJ.C66_needs_globals_id",
    "NJ.C66_needs_ntp_id",
    "NJ.C66_needs_led_id",
    "NJ.C66_needs_route_name",
    "NJ.C66_needs_rule_name",
    "NJ.C66_needs_switch_id",
    "NJ.C66_needs_switch_vlan_id",
    "NJ.C66_needs_destination",
    "NJ.C66_needs_custom",
    "NJ.C66_needs_openvpn",
    "NJ.C66_needs_wireguard",
    "NJ.C66_needs_modem",
    "NJ.C66_needs_vxlan",
    "NJ.C66_needs_mask",
    "NJ.C66_needs_ipaddr",
    "NJ.C66_needs_ip6addr",
    "NJ.C66_needs_address_name",
    "NJ.C66_needs_filtering",
    "NJ.C66_needs_vlan",
    "NJ.C66_needs_bridge",
    "NJ.C66_needs_wifi",
    "NJ.C66_needs_monitor",
    "NJ.C66_needs_wifi_id",
    "NJ.C66_needs_encryption_name",
    "NJ.C66_needs_encryption_network",
    "NJ.validSample_tame",
    "NJ.validSample_wf",
    "NJ.validSample_valid",
    "NJ.validSample_renders",
    "NJ.schema_merged",
    "NJ.schema_keys",
    "NJ.schema_types",
    "NJ.schema_known",
    "NJ.owValidate_depth"
   ],
   "note": "the schema is transcribed as data (tools/schema_gen.py) and schema_merged evaluates its assembly; lists or objects inside `ports` of an interface that the schema does not describe are not modelled as errors"
  },
  {
   "property": "C67",
   "status": "proved",
   "theorems": [
    "NJ.C67_groups",
    "NJ.C67_interfaces",
    "NJ.C67_how_many",
    "NJ.C67_names_differ",
    "NJ.C67_needs_distinct"
   ],
   "note": "C67_needs_distinct: the second section of eth0 and the interface eth0.2 share a name and are merged"
  },
  {
   "property": "C74",
   "status": "proved",
   "theorems": [
    "NJ.C74_vlans"
   ],
   "note": ""
  },
  {
   "property": "C68",
   "status": "proved",
   "theorems": [
    "NJ.C68_accepted",
    "NJ.C68_arguments",
    "NJ.C68_render",
    "NJ.C68_validate",
    "NJ.C68_missing",
    "NJ.C68_refused"
   ],
   "note": "argparse and message texts are not modelled"
  },
  {
   "property": "C69",
   "status": "proved",
   "theorems": [
    "NJ.C69_after_failed_conversion"
   ],
   "note": ""
  },
  {
   "property": "C72",
   "status": "proved",
   "theorems": [
    "NJ.C72_members",
    "NJ.C72_openvpn",
    "NJ.C72_wireguard",
    "NJ.C72_archive_as_text",
    "NJ.C72_needs_names"
   ],
   "note": ""
  },
  {
   "property": "C73",
   "status": "proved",
   "theorems": [
    "NJ.C73_interfaces",
    "NJ.C73_needs_dots",
    "NJ.C73_needs_sections",
    "NJ.C73_needs_devices",
    "NJ.C73_needs_names",
    "NJ.C73_needs_one_group",
    "NJ.C73_needs_no_ageing",
    "NJ.C73_needs_bridge_name",
    "NJ.C73_needs_reserved"
   ],
   "note": "for lists of interfaces with one group of addresses each and names that do not collide; every limit has a counterexample theorem"
  },
  {
   "property": "C71",
   "status": "proved",
   "theorems": [
    "NJ.C71_round_trip",
    "NJ.C71_needs_names",
    "NJ.C71_needs_custom",
    "NJ.C71_needs_wifiNetworks"
   ],
   "note": "without ZeroTier, whose round trip is C64; wireless interfaces have no addresses of their own (they may be members of bridges), and come back as in C48; C71_needs_wifiNetworks: a network that is named although the interface is a member of a bridge is lost if it is that bridge; OpenVPN comes back as in C79; what comes back is validated by the constructor. C71_needs_names: sections of equal names are merged. C71_needs_custom: custom blocks in the package network come back as WireGuard peers."
  },
  {
   "property": "C75",
   "status": "proved",
   "theorems": [
    "NJ.C75_json",
    "NJ.C75_tojson",
    "NJ.C75_constructor",
    "NJ.C75_text_or_dict",
    "NJ.C75_backends"
   ],
   "note": "numbers that are not integers and lone surrogates are not modelled"
  },
  {
   "property": "C77",
   "status": "proved",
   "theorems": [
    "NJ.C77_valid",
    "NJ.C77_written",
    "NJ.C77_read",
    "NJ.C77_clock_kept",
    "NJ.C77_round_trip",
    "NJ.C77_needs_zonename",
    "NJ.C77_unknown",
    "NJ.C77_needs_order",
    "NJ.timezones_good",
    "NJ.otherZones_good"
   ],
   "note": "the tables of the code (Zones), transcribed by tools/schema_gen.py; one entry is written as a set of two texts, so there are two tables, depending on the hashes of the process: the theorems hold of both (timezones_good, otherZones_good), C77_valid of the order written; C77_needs_order: in the other order a zone that exists is refused; the reversed table is the one the loop of the code builds, characterised by induction. C77_unknown: KeyError, also for strings that OpenWrt knows."
  },
  {
   "property": "C78",
   "status": "proved",
   "theorems": [
    "NJ.C78_options",
    "NJ.C78_needs_members"
   ],
   "note": "the value of every option of every block, for interfaces of all types; together with C67 (how many sections, their groups of addresses and names)"
  },
  {
   "property": "C76",
   "status": "proved",
   "theorems": [
    "NJ.C76_round_trip",
    "NJ.C76_archive",
    "NJ.C76_sample",
    "NJ.C76_needs_no_comments",
    "NJ.C76_needs_one_line"
   ],
   "note": "C76_needs_no_comments: what looks like a comment inside a text is cut out, silently, or makes the parser fail"
  },
  {
   "property": "C79",
   "status": "proved",
   "theorems": [
    "NJ.C79_round_trip",
    "NJ.sample_uci_vpn",
    "NJ.C79_needs_bridge"
   ],
   "note": "tls_auth of the form path direction (inline keys become files: C60); a parameter of server_bridge that is the text 1 comes back empty (C79_needs_bridge)"
  },
  {
   "property": "C80",
   "status": "proved",
   "theorems": [
    "NJ.C80_validate",
    "NJ.C80_reading",
    "NJ.C80_sample",
    "NJ.schema_shapes",
    "NJ.owisp_merged",
    "NJ.openvpn_schema",
    "NJ.vxlan_schema"
   ],
   "note": "the regular expressions of the patterns are transcribed by hand (Schema.lean, patterns); what it means that they match is specified; IPv6 addresses are read by a parameter; numbers that are not integers are not modelled"
  },
  {
   "property": "C81",
   "status": "proved",
   "theorems": [
    "NJ.C81_openvpn",
    "NJ.C81_wireguard",
    "NJ.C81_vxlan",
    "NJ.C81_zerotier",
    "NJ.C81_needs_remote",
    "NJ.C81_needs_address"
   ],
   "note": "the exceptions the two needs-theorems exhibit are conditions of the theorems (NoServerRemote, HasAddress)"
  },
  {
   "property": "C70",
   "status": "proved",
   "theorems": [
    "NJ.C70_member_names",
    "NJ.C70_stays_below",
    "NJ.names_sample_archived",
    "NJ.C70_needs_package_names",
    "NJ.C70_needs_key_path",
    "NJ.C70_needs_map_path"
   ],
   "note": "first generate() of an object; the needs-theorems exhibit configurations accepted by validate() whose archives leave the directory"
  },
  {
   "property": "C82",
   "status": "proved",
   "theorems": [
    "NJ.C82_no_forged_lines",
    "NJ.C82_lines_of_data",
    "NJ.C82_generate",
    "NJ.C82_members_of_data",
    "NJ.C82_constructed",
    "NJ.valid_env_wide",
    "NJ.names_sample_clean",
    "NJ.top_sample_archived",
    "NJ.C82_needs_no_backslash",
    "NJ.C82_needs_unbroken_values",
    "NJ.C82_needs_unbroken_lines",
    "NJ.C82_needs_unbroken_key"
   ],
   "note": "Wide NoBreak env: case conversion, repr, time zones and IPv6 texts make no line breaks (shown of the environment of the examples, with the real table of time zones). C82_constructed: from the arguments of the constructor (configuration, templates, variables); a backslash in a variable makes line breaks (C82_needs_no_backslash)"
  },
  {
   "property": "C83",
   "status": "proved",
   "theorems": [
    "NJ.C83_validate",
    "NJ.C83_render",
    "NJ.C83_generate",
    "NJ.C83_schema",
    "NJ.flipped_same",
    "NJ.flipped_other",
    "NJ.C83_needs_tidy"
   ],
   "note": "first call on an object made from the configuration itself, with the schema of the OpenWrt backend; the exceptions need not be the same (which of two broken packages is met first depends on the order); VLANs of a bridge in the older syntax are an option with an object as its value and are excluded"
  },
  {
   "property": "C84",
   "status": "proved",
   "theorems": [
    "NJ.C84_commute",
    "NJ.C84_render",
    "NJ.C84_any_order",
    "NJ.tpl_reordered",
    "NJ.tpl_constructed",
    "NJ.C84_needs_disjoint"
   ],
   "note": "C84_any_order: every permutation of templates with, two by two, no key in common is a reordering"
  },
  {
   "property": "C85",
   "status": "proved",
   "theorems": [
    "NJ.C85_blocks",
    "NJ.C85_file",
    "NJ.elsewhere_agree",
    "NJ.elsewhere_archived",
    "NJ.C85_needs_routes"
   ],
   "note": "both first renderings (archives) succeed; C85_file: for configurations as in C82; names of the packages' files only, files of the section `files` are separate"
  },
  {
   "property": "C86",
   "status": "proved",
   "theorems": [
    "NJ.C86_scripts",
    "NJ.C86_archive",
    "NJ.C86_sample",
    "NJ.C86_needs_one_line",
    "NJ.C86_not_quoted"
   ],
   "note": "the templates with their texts are modelled; the burst rates (0.187 * X, a floating point product) are a parameter; the members hold the texts as bytes, cut as in C22 when not ASCII"
  },
  {
   "property": "C87",
   "status": "proved",
   "theorems": [
    "NJ.C87_render",
    "NJ.C87_generate",
    "NJ.C87_radios",
    "NJ.C87_sample"
   ],
   "note": "`Tame` as in C66 (each clause necessary there, `PropsValidNeeds`); the time zone table knows the names of the schema"
  },
  {
   "property": "C88",
   "status": "proved",
   "theorems": [
    "NJ.C88_text",
    "NJ.C88_archive",
    "NJ.C88_valid",
    "NJ.C88_needs_key_path",
    "NJ.C88_wireguard_escapes",
    "NJ.ovpn_fits"
   ],
   "note": "the first rendering; values that are no texts by the model's repr parameter; `FileFits`: lines without line break and four spaces in a row, at least one, ASCII (C22); the files after deduplication (C21)"
  },
  {
   "property": "C89",
   "status": "proved",
   "theorems": [
    "NJ.C89_openvpn",
    "NJ.C89_wireguard",
    "NJ.C89_zerotier",
    "NJ.C89_samples"
   ],
   "note": "first call on an object made from the configuration itself, with the schemas of the backends; the exceptions of the conversion need not be the same; the other exceptions are"
  },
  {
   "property": "C90",
   "status": "proved",
   "theorems": [
    "NJ.C90_written",
    "NJ.C90_failed",
    "NJ.C90_interrupted",
    "NJ.C90_path",
    "NJ.C90_needs_no_interruption",
    "NJ.C90_needs_path"
   ],
   "note": "the file system is a map from paths to contents, and write() is the list of its operations; the bytes of the archive reach the file in one operation. C90_needs_no_interruption: the write is not atomic, the old archive is lost if it is interrupted; C90_needs_path: an empty path is the root directory"
  },
  {
   "property": "C91",
   "status": "proved",
   "theorems": [
    "NJ.C91_openwrt",
    "NJ.C91_openwrt_json",
    "NJ.C91_openvpn",
    "NJ.C91_wireguard",
    "NJ.C91_vxlan",
    "NJ.C91_zerotier",
    "NJ.C91_openwisp",
    "NJ.C91_openwisp_json",
    "NJ.C91_answers",
    "NJ.C91_json",
    "NJ.C91_invalid",
    "NJ.C91_needs_paths",
    "NJ.C91_needs_render",
    "NJ.C91_needs_not_json"
   ],
   "note": "C91_answers, C91_json and C91_invalid are about any class; the conditions are needed: an inline key next to a CA whose path has other characters makes the second render() fail (C91_needs_paths), and after a conversion that raises the next call returns a partial text (C91_needs_render, C69). OpenWisp, whose generate() adds scripts to the files, is covered by C91_openwisp; C65_needs_distinct_paths shows that the paths are to be distinct"
  },
  {
   "property": "C92",
   "status": "proved",
   "theorems": [
    "NJ.C92_auto_client",
    "NJ.C92_renders",
    "NJ.C92_sample",
    "NJ.C92_sample_renders",
    "NJ.C92_needs_distinct",
    "NJ.C92_needs_host",
    "NJ.C92_needs_path",
    "NJ.C92_needs_valid"
   ],
   "note": "HostOk, PairOk and distinct paths are about the arguments; each is needed by evaluation (the same file twice, a host with an underscore, a path with a blank), and so is a valid server (C92_needs_valid: an ns_cert_type outside of the schema raises KeyError). C92_renders asks in addition that keys of objects are not repeated (WF), as in every Python dict"
  },
  {
   "property": "C93",
   "status": "proved",
   "theorems": [
    "NJ.C93_wireguard",
    "NJ.C93_vxlan",
    "NJ.C93_zerotier",
    "NJ.C93_sample",
    "NJ.C93_sample_vxlan",
    "NJ.C93_sample_zerotier",
    "NJ.C93_needs_args",
    "NJ.C93_needs_vni",
    "NJ.C93_needs_options"
   ],
   "note": "findings: the defaults of public_key, server_ip_network and server are refused, and so is the default VNI 0, which the VXLAN backend itself accepts (C93_needs_vni); client_options that contain id make two networks one (C93_needs_options)"
  },
  {
   "property": "C94",
   "status": "proved",
   "theorems": [
    "NJ.C94_entries",
    "NJ.C94_order",
    "NJ.C94_text",
    "NJ.C94_details",
    "NJ.C94_context",
    "NJ.C94_named",
    "NJ.C94_own",
    "NJ.C94_parse_error",
    "NJ.C94_sample",
    "NJ.C94_sample_own",
    "NJ.C94_needs_one_reason"
   ],
   "note": "the messages of the library and the texts of schemas are parameters; the errors of the library (iter_errors, in order, with context) are modelled for the keywords of the schemas. Finding: the i-th alternative is paired with the i-th error of all alternatives, so that an interface of an unknown type is told that a VXLAN interface needs a user name (C94_needs_one_reason); and str(ParseError(...)) raises AttributeError (C94_parse_error)"
  },
  {
   "property": "C95",
   "status": "proved",
   "theorems": [
    "NJ.C95_same",
    "NJ.C95_add",
    "NJ.C95_json",
    "NJ.C95_openwisp",
    "NJ.C95_sample",
    "NJ.C95_needs_no_list"
   ],
   "note": "`meaning` keeps the members of the schema's keys, and for OpenWrt and OpenWisp also lists; of the OpenWisp backend validate and render, not generate; two documents of json() are compared only as to whether there is one. C95_json: the configuration has no repeated keys (WF), as every Python dict"
  },
  {
   "property": "C96",
   "status": "proved",
   "theorems": [
    "NJ.C96_extends",
    "NJ.C96_only_write",
    "NJ.C96_generate",
    "NJ.C96_json",
    "NJ.C96_write",
    "NJ.C96_arguments",
    "NJ.C96_again",
    "NJ.C96_sample_json",
    "NJ.C96_sample",
    "NJ.C96_sample_arguments",
    "NJ.C96_sample_render",
    "NJ.C96_needs_settled",
    "NJ.C96_needs_text"
   ],
   "note": "json.dumps with keyword arguments is a parameter (without: jsonDumps, C75); a file that cannot be written is not modelled; C96_again is about the backends of backendsWithSchema (not OpenWisp) and asks that no text of the printed configuration contains a placeholder of an environment variable (C96_needs_settled: otherwise it is evaluated again); C96_write asks for names and paths other than True, False, 1 and 0 (C96_needs_text: name=1 writes True.tar.gz, path=1 raises AttributeError)"
  },
  {
   "property": "C97",
   "status": "proved",
   "theorems": [
    "NJ.C97_beforehand",
    "NJ.C97_no_lists",
    "NJ.C97_sample",
    "NJ.C97_needs_different"
   ],
   "note": "object identity inside of lists (sh) is asked to be the same before and after the replacement, which is so when no object occurs twice; finding (C97_needs_different): a template for the tunnel {{N}} and a configuration of the tunnel a, with N=a, give two tunnels called a"
  },
  {
   "property": "C98",
   "status": "proved",
   "theorems": [
    "NJ.C98_layers",
    "NJ.C98_last_wins",
    "NJ.C98_archive",
    "NJ.C98_archive_keeping",
    "NJ.C98_sample",
    "NJ.C98_sample_archive",
    "NJ.C98_needs_new"
   ],
   "note": "variables: without context (with one, see C97); files are dictionaries without the identifiers name, config_value, id (which the schema does not define for files), no file object is used twice; C98_archive asks that the conversion makes no other file of that path (key files of OpenVPN, device maps of ZeroTier). Finding (C98_needs_new): with templates that give /etc/banner the contents 1 and then 2, a configuration that gives it 1 gets 2"
  },
  {
   "property": "C99",
   "status": "proved",
   "theorems": [
    "NJ.C99_wireless",
    "NJ.radio_valid",
    "NJ.wifi_sample_made",
    "NJ.C99_needs_names"
   ],
   "note": "OpenWrt backend with its real schema; the configuration has no package wireless of its own (which the default converter would merge), the names of the sections of the Wi-Fi interfaces are texts, the encryption objects have no option .name and the names of the sections differ. Finding (C99_needs_names): validate accepts a Wi-Fi interface whose id is the name of a radio, and the radio is lost"
  },
  {
   "property": "C100",
   "status": "proved",
   "theorems": [
    "NJ.C100_network",
    "NJ.net_sample_made",
    "NJ.C100_needs_names"
   ],
   "note": "OpenWrt backend with its real schema; the configuration has no package network of its own; addresses of interfaces have none of the keys .name, .type, ipaddr, ip6addr and bridge_members is a list (as in C78, which says what the sections of the interfaces are); the package is the list of all sections when their names differ. Finding (C100_needs_names): validate accepts a route whose name is that of an interface, and the interface turns into a route"
  },
  {
   "property": "C101",
   "status": "proved",
   "theorems": [
    "NJ.C101_system",
    "NJ.sys_sample_made",
    "NJ.C101_needs_names"
   ],
   "note": "OpenWrt backend with its real schema; the configuration has no package system of its own; the lookup of time zones and the lower case are arguments (the table is SchemaData.timezones); the package is the list of all sections when their names differ. Finding (C101_needs_names): validate accepts a LED whose id is ntp, and the section of the NTP settings turns into that LED"
  },
  {
   "property": "C102",
   "status": "proved",
   "theorems": [
    "NJ.C102_openvpn",
    "NJ.extra_sample_made"
   ],
   "note": "OpenWrt backend with its real schema (a configuration its validation accepts and its converters convert); about the intermediate form, which the renderer turns into text; the printing of numbers that are no integers is an argument. No hypothesis on names: sections are listed, not merged"
  },
  {
   "property": "C103",
   "status": "proved",
   "theorems": [
    "NJ.C103_zerotier",
    "NJ.extra_sample_made"
   ],
   "note": "OpenWrt backend with its real schema; about the intermediate form, as C102; no hypothesis on names"
  },
  {
   "property": "C104",
   "status": "proved",
   "theorems": [
    "NJ.C104_packages",
    "NJ.extra_sample_made"
   ],
   "note": "OpenWrt backend with its real schema; about the intermediate form, as C102; what lists under network, system and wireless add to these packages is C105"
  },
  {
   "property": "C105",
   "status": "proved",
   "theorems": [
    "NJ.C105_network",
    "NJ.C105_system",
    "NJ.C105_wireless",
    "NJ.own_sample_made",
    "NJ.C105_needs_names"
   ],
   "note": "OpenWrt backend with its real schema; hypotheses on addresses, bridge_members and the names of Wi-Fi sections as in C99 and C100. Finding (C105_needs_names): a listed section with the name of a section of a converter replaces its type and adds its options"
  }
 ]
}
import Verif.Base

/-!
# The JSON schemas as data

Made by tools/schema_gen.py from schema.py, openwrt/schema.py, openvpn/schema.py and wireguard/schema.py. Left out: keywords that only describe
(`title`, `description`, `default`, `propertyOrder`, `options`, …), keywords `jsonschema` does not know (`maxmium`), formats it does not know
(`checkbox`, `textarea`), and keywords that are always met here (`additionalProperties: true`, `additionalItems` beside an `items` that is a schema).
-/

namespace NJ

def baseSchema_def_base_address : Val := .dict [("type", .str "object"), ("required", .list [.str "proto", .str "family"]), ("properties",
  .dict [("proto", .dict [("type", .str "string")]), ("family", .dict [("type", .str "string")])])]

def baseSchema_def_static_address : Val := .dict [("required", .list [.str "address", .str "mask"]), ("properties", .dict [("address",
  .dict [("type", .str "string")]), ("mask", .dict [("type", .str "integer")])])]

def baseSchema_def_ipv4_address : Val := .dict [("allOf", .list [.dict [("$ref", .str "#/definitions/base_address")], .dict [("$ref",
  .str "#/definitions/static_address")], .dict [("type", .str "object"), ("properties", .dict [("proto", .dict [("enum", .list [.str "static"])]),
  ("family", .dict [("enum", .list [.str "ipv4"])]), ("address", .dict [("minLength", .int 7), ("maxLength", .int 15), ("format", .str "ipv4")]),
  ("mask", .dict [("minimum", .int 8)]), ("gateway", .dict [("type", .str "string"), ("maxLength", .int 16)])])]])]

def baseSchema_def_ipv6_address : Val := .dict [("allOf", .list [.dict [("$ref", .str "#/definitions/base_address")], .dict [("$ref",
  .str "#/definitions/static_address")], .dict [("type", .str "object"), ("required", .list [.str "address", .str "mask"]), ("properties",
  .dict [("proto", .dict [("enum", .list [.str "static"])]), ("family", .dict [("enum", .list [.str "ipv6"])]), ("address", .dict [("minLength",
  .int 3), ("maxLength", .int 45), ("format", .str "ipv6")]), ("mask", .dict [("minimum", .int 4)]), ("gateway", .dict [("type", .str "string"),
  ("maxLength", .int 45)])])]])]

def baseSchema_def_dhcp_address : Val := .dict [("allOf", .list [.dict [("$ref", .str "#/definitions/base_address")], .dict [("type", .str "object"),
  ("properties", .dict [("proto", .dict [("enum", .list [.str "dhcp"])]), ("family", .dict [("enum", .list [.str "ipv4", .str "ipv6"])])])]])]

def baseSchema_def_base_interface_settings : Val := .dict [("type", .str "object"), ("required", .list [.str "name", .str "type"]), ("properties",
  .dict [("name", .dict [("type", .str "string"), ("minLength", .int 2), ("maxLength", .int 15), ("pattern", .str "^[^\\s]*$")]), ("mtu",
  .dict [("type", .str "integer"), ("minimum", .int 68)]), ("disabled", .dict [("type", .str "boolean")])])]

def baseSchema_def_interface_settings : Val := .dict [("type", .str "object"), ("properties", .dict [("mac", .dict [("type", .str "string"),
  ("pattern", .str "^(([0-9A-Fa-f]{2}[:-]){5}([0-9A-Fa-f]{2})|)$"), ("maxLength", .int 17)]), ("autostart", .dict [("type", .str "boolean")]),
  ("addresses", .dict [("type", .str "array"), ("uniqueItems", .bool true), ("items", .dict [("oneOf", .list [.dict [("$ref",
  .str "#/definitions/dhcp_address")], .dict [("$ref", .str "#/definitions/ipv4_address")], .dict [("$ref",
  .str "#/definitions/ipv6_address")]])])])])]

def baseSchema_def_network_interface : Val := .dict [("allOf", .list [.dict [("properties", .dict [("type", .dict [("type", .str "string"), ("enum",
  .list [.str "ethernet", .str "virtual", .str "loopback", .str "other"])])])], .dict [("$ref", .str "#/definitions/base_interface_settings")],
  .dict [("$ref", .str "#/definitions/interface_settings")]])]

def baseSchema_def_wireless_interface : Val := .dict [("allOf", .list [.dict [("properties", .dict [("type", .dict [("type", .str "string"), ("enum",
  .list [.str "wireless"])]), ("wireless", .dict [("type", .str "object"), ("oneOf", .list [.dict [("$ref",
  .str "#/definitions/ap_wireless_settings")], .dict [("$ref", .str "#/definitions/sta_wireless_settings")], .dict [("$ref",
  .str "#/definitions/adhoc_wireless_settings")], .dict [("$ref", .str "#/definitions/monitor_wireless_settings")], .dict [("$ref",
  .str "#/definitions/mesh_wireless_settings")]])])])], .dict [("$ref", .str "#/definitions/base_interface_settings")], .dict [("$ref",
  .str "#/definitions/interface_settings")]])]

def baseSchema_def_bridge_interface : Val := .dict [("required", .list [.str "bridge_members"]), ("allOf", .list [.dict [("properties",
  .dict [("type", .dict [("type", .str "string"), ("enum", .list [.str "bridge"])]), ("stp", .dict [("type", .str "boolean")]), ("bridge_members",
  .dict [("type", .str "array"), ("uniqueItems", .bool true), ("items", .dict [("type", .str "string"), ("$ref",
  .str "#/definitions/base_interface_settings/properties/name")])])])], .dict [("$ref", .str "#/definitions/base_interface_settings")],
  .dict [("$ref", .str "#/definitions/interface_settings")]])]

def baseSchema_def_base_wireless_settings : Val := .dict [("type", .str "object"), ("required", .list [.str "radio", .str "mode"]), ("properties",
  .dict [("mode", .dict [("type", .str "string")]), ("radio", .dict [("type", .str "string"), ("minLength", .int 2)]), ("ack_distance",
  .dict [("type", .str "integer"), ("minimum", .int 0)]), ("rts_threshold", .dict [("type", .str "integer"), ("minimum", .int 0), ("maximum",
  .int 2346)]), ("frag_threshold", .dict [("type", .str "integer"), ("minimum", .int 0), ("maximum", .int 2346)])])]

def baseSchema_def_ssid_wireless_property : Val := .dict [("required", .list [.str "ssid"]), ("properties", .dict [("ssid", .dict [("type",
  .str "string"), ("maxLength", .int 32)])])]

def baseSchema_def_hidden_wireless_property : Val := .dict [("properties", .dict [("hidden", .dict [("type", .str "boolean")])])]

def baseSchema_def_bssid_wireless_property : Val := .dict [("properties", .dict [("bssid", .dict [("type", .str "string"), ("pattern",
  .str "^(([0-9A-Fa-f]{2}[:-]){5}([0-9A-Fa-f]{2})|)$"), ("maxLength", .int 17)])])]

def baseSchema_def_wds_wireless_property : Val := .dict [("properties", .dict [("wds", .dict [("type", .str "boolean")])])]

def baseSchema_def_mesh_id_wireless_property : Val := .dict [("required", .list [.str "mesh_id"]), ("properties", .dict [("mesh_id", .dict [("type",
  .str "string"), ("pattern", .str "^[^\\s]*$")])])]

def baseSchema_def_encryption_wireless_property_ap : Val := .dict [("properties", .dict [("encryption", .dict [("type", .str "object"), ("required",
  .list [.str "protocol"]), ("oneOf", .list [.dict [("$ref", .str "#/definitions/encryption_none")], .dict [("$ref",
  .str "#/definitions/encryption_owe")], .dict [("$ref", .str "#/definitions/encryption_wpa3_personal")], .dict [("$ref",
  .str "#/definitions/encryption_wpa3_enterprise_ap")], .dict [("$ref", .str "#/definitions/encryption_wpa3_personal_mixed")], .dict [("$ref",
  .str "#/definitions/encryption_wpa3_enterprise_ap_mixed")], .dict [("$ref", .str "#/definitions/encryption_wpa_personal")], .dict [("$ref",
  .str "#/definitions/encryption_wpa_enterprise_ap")], .dict [("$ref", .str "#/definitions/encryption_wps")], .dict [("$ref",
  .str "#/definitions/encryption_wep")]])])])]

def baseSchema_def_encryption_wireless_property_sta : Val := .dict [("properties", .dict [("encryption", .dict [("type", .str "object"), ("required",
  .list [.str "protocol"]), ("oneOf", .list [.dict [("$ref", .str "#/definitions/encryption_none")], .dict [("$ref",
  .str "#/definitions/encryption_owe")], .dict [("$ref", .str "#/definitions/encryption_wpa3_personal")], .dict [("$ref",
  .str "#/definitions/encryption_wpa3_enterprise_sta")], .dict [("$ref", .str "#/definitions/encryption_wpa3_personal_mixed")], .dict [("$ref",
  .str "#/definitions/encryption_wpa3_enterprise_sta_mixed")], .dict [("$ref", .str "#/definitions/encryption_wpa_personal")], .dict [("$ref",
  .str "#/definitions/encryption_wpa_enterprise_sta")], .dict [("$ref", .str "#/definitions/encryption_wep")]])])])]

def baseSchema_def_encryption_wireless_property_mesh : Val := .dict [("properties", .dict [("encryption", .dict [("type", .str "object"),
  ("required", .list [.str "protocol"]), ("oneOf", .list [.dict [("$ref", .str "#/definitions/encryption_none")], .dict [("$ref",
  .str "#/definitions/encryption_wpa3_personal")], .dict [("$ref", .str "#/definitions/encryption_wpa_personal")], .dict [("$ref",
  .str "#/definitions/encryption_wep")]])])])]

def baseSchema_def_encryption_none : Val := .dict [("properties", .dict [("protocol", .dict [("type", .str "string"), ("enum",
  .list [.str "none"])])])]

def baseSchema_def_encryption_base_settings : Val := .dict [("required", .list [.str "key"]), ("properties", .dict [("protocol", .dict [("type",
  .str "string")]), ("key", .dict [("type", .str "string")]), ("disabled", .dict [("type", .str "boolean")])])]

def baseSchema_def_encryption_cipher_property : Val := .dict [("properties", .dict [("cipher", .dict [("type", .str "string"), ("enum",
  .list [.str "auto", .str "ccmp", .str "tkip", .str "tkip+ccmp"])])])]

def baseSchema_def_encryption_cipher_ccmp_required : Val := .dict [("required", .list [.str "cipher"]), ("properties", .dict [("cipher",
  .dict [("type", .str "string"), ("enum", .list [.str "ccmp"])])])]

def baseSchema_def_encryption_mfp_property : Val := .dict [("properties", .dict [("ieee80211w", .dict [("type", .str "string"), ("enum",
  .list [.str "0", .str "1", .str "2"])])])]

def baseSchema_def_encryption_mfp_property_required : Val := .dict [("required", .list [.str "ieee80211w"]), ("properties", .dict [("ieee80211w",
  .dict [("type", .str "string"), ("enum", .list [.str "2"])])])]

def baseSchema_def_encryption_mfp_property_optional : Val := .dict [("required", .list [.str "ieee80211w"]), ("properties", .dict [("ieee80211w",
  .dict [("type", .str "string"), ("enum", .list [.str "1", .str "2"])])])]

def baseSchema_def_encryption_owe : Val := .dict [("allOf", .list [.dict [("$ref", .str "#/definitions/encryption_mfp_property")],
  .dict [("properties", .dict [("protocol", .dict [("type", .str "string"), ("enum", .list [.str "owe"])])])]])]

def baseSchema_def_encryption_wpa3_personal : Val := .dict [("allOf", .list [.dict [("$ref", .str "#/definitions/encryption_base_settings")],
  .dict [("$ref", .str "#/definitions/encryption_cipher_ccmp_required")], .dict [("$ref", .str "#/definitions/encryption_mfp_property_required")],
  .dict [("properties", .dict [("protocol", .dict [("enum", .list [.str "wpa3_personal"])]), ("key", .dict [("minLength", .int 8)])])]])]

def baseSchema_def_encryption_wpa3_personal_mixed : Val := .dict [("allOf", .list [.dict [("$ref", .str "#/definitions/encryption_base_settings")],
  .dict [("$ref", .str "#/definitions/encryption_cipher_ccmp_required")], .dict [("$ref", .str "#/definitions/encryption_mfp_property_optional")],
  .dict [("properties", .dict [("protocol", .dict [("enum", .list [.str "wpa2_personal_mixed"])]), ("key", .dict [("minLength", .int 8)])])]])]

def baseSchema_def_encryption_wpa_personal : Val := .dict [("allOf", .list [.dict [("$ref", .str "#/definitions/encryption_base_settings")],
  .dict [("$ref", .str "#/definitions/encryption_cipher_property")], .dict [("$ref", .str "#/definitions/encryption_mfp_property")],
  .dict [("properties", .dict [("protocol", .dict [("enum", .list [.str "wpa2_personal", .str "wpa_personal_mixed", .str "wpa_personal"])]), ("key",
  .dict [("minLength", .int 8)])])]])]

def baseSchema_def_encryption_wpa_enterprise_ap_base_settings : Val := .dict [("required", .list [.str "server"]), ("properties", .dict [("server",
  .dict [("type", .str "string"), ("minLength", .int 3)]), ("key", .dict [("minLength", .int 4)]), ("port", .dict [("type", .str "integer")]),
  ("acct_server", .dict [("type", .str "string")]), ("acct_server_port", .dict [("type", .str "integer")])])]

def baseSchema_def_encryption_wpa_enterprise_sta_base_settings : Val := .dict [("properties", .dict [("eap_type", .dict [("type", .str "string"),
  ("enum", .list [.str "tls", .str "ttls", .str "peap"])]), ("auth", .dict [("type", .str "string"), ("enum", .list [.str "PAP", .str "CHAP",
  .str "MSCHAP", .str "MSCHAPV2", .str "EAP-GTC", .str "EAP-MD5", .str "EAP-MSCHAPV2", .str "EAP-TLS"])]), ("identity", .dict [("type",
  .str "string")]), ("anonymous_identity", .dict [("type", .str "string")]), ("password", .dict [("type", .str "string")]), ("ca_cert",
  .dict [("type", .str "string")]), ("client_cert", .dict [("type", .str "string")]), ("priv_key", .dict [("type", .str "string")]), ("priv_key_pwd",
  .dict [("type", .str "string")])])]

def baseSchema_def_encryption_wpa3_enterprise_base_settings : Val := .dict [("properties", .dict [("protocol", .dict [("type", .str "string"),
  ("enum", .list [.str "wpa3_enterprise"])])])]

def baseSchema_def_encryption_wpa3_enterprise_mixed_base_settings : Val := .dict [("properties", .dict [("protocol", .dict [("type", .str "string"),
  ("enum", .list [.str "wpa2_enterprise_mixed"])])])]

def baseSchema_def_encryption_wpa3_enterprise_ap : Val := .dict [("allOf", .list [.dict [("$ref", .str "#/definitions/encryption_base_settings")],
  .dict [("$ref", .str "#/definitions/encryption_cipher_ccmp_required")], .dict [("$ref", .str "#/definitions/encryption_mfp_property_required")],
  .dict [("$ref", .str "#/definitions/encryption_wpa3_enterprise_base_settings")], .dict [("$ref",
  .str "#/definitions/encryption_wpa_enterprise_ap_base_settings")]])]

def baseSchema_def_encryption_wpa3_enterprise_ap_mixed : Val := .dict [("allOf", .list [.dict [("$ref",
  .str "#/definitions/encryption_base_settings")], .dict [("$ref", .str "#/definitions/encryption_cipher_ccmp_required")], .dict [("$ref",
  .str "#/definitions/encryption_mfp_property_optional")], .dict [("$ref", .str "#/definitions/encryption_wpa3_enterprise_mixed_base_settings")],
  .dict [("$ref", .str "#/definitions/encryption_wpa_enterprise_ap_base_settings")]])]

def baseSchema_def_encryption_wpa3_enterprise_sta : Val := .dict [("allOf", .list [.dict [("$ref",
  .str "#/definitions/encryption_cipher_ccmp_required")], .dict [("$ref", .str "#/definitions/encryption_mfp_property_required")], .dict [("$ref",
  .str "#/definitions/encryption_wpa3_enterprise_base_settings")], .dict [("$ref",
  .str "#/definitions/encryption_wpa_enterprise_sta_base_settings")]])]

def baseSchema_def_encryption_wpa3_enterprise_sta_mixed : Val := .dict [("allOf", .list [.dict [("$ref",
  .str "#/definitions/encryption_cipher_ccmp_required")], .dict [("$ref", .str "#/definitions/encryption_mfp_property_optional")], .dict [("$ref",
  .str "#/definitions/encryption_wpa3_enterprise_mixed_base_settings")], .dict [("$ref",
  .str "#/definitions/encryption_wpa_enterprise_sta_base_settings")]])]

def baseSchema_def_encryption_wpa_enterprise_base_settings : Val := .dict [("properties", .dict [("protocol", .dict [("type", .str "string"),
  ("enum", .list [.str "wpa2_enterprise", .str "wpa_enterprise_mixed", .str "wpa_enterprise"])])])]

def baseSchema_def_encryption_wpa_enterprise_ap : Val := .dict [("allOf", .list [.dict [("$ref", .str "#/definitions/encryption_base_settings")],
  .dict [("$ref", .str "#/definitions/encryption_cipher_property")], .dict [("$ref", .str "#/definitions/encryption_mfp_property")], .dict [("$ref",
  .str "#/definitions/encryption_wpa_enterprise_base_settings")], .dict [("$ref", .str "#/definitions/encryption_wpa_enterprise_ap_base_settings")]])]

def baseSchema_def_encryption_wpa_enterprise_sta : Val := .dict [("allOf", .list [.dict [("$ref", .str "#/definitions/encryption_cipher_property")],
  .dict [("$ref", .str "#/definitions/encryption_mfp_property")], .dict [("$ref", .str "#/definitions/encryption_wpa_enterprise_base_settings")],
  .dict [("$ref", .str "#/definitions/encryption_wpa_enterprise_sta_base_settings")]])]

def baseSchema_def_encryption_wep : Val := .dict [("allOf", .list [.dict [("$ref", .str "#/definitions/encryption_base_settings")],
  .dict [("properties", .dict [("protocol", .dict [("enum", .list [.str "wep_open", .str "wep_shared"])]), ("key", .dict [("minLength", .int 5),
  ("maxLength", .int 26)])])]])]

def baseSchema_def_encryption_wps : Val := .dict [("properties", .dict [("protocol", .dict [("type", .str "string"), ("enum", .list [.str "wps"])]),
  ("wps_pushbutton", .dict [("type", .str "boolean")]), ("wps_label", .dict [("type", .str "boolean")]), ("wps_pin", .dict [("type",
  .str "string")])])]

def baseSchema_def_ap_wireless_settings : Val := .dict [("allOf", .list [.dict [("properties", .dict [("mode", .dict [("enum",
  .list [.str "access_point"])])])], .dict [("$ref", .str "#/definitions/base_wireless_settings")], .dict [("$ref",
  .str "#/definitions/ssid_wireless_property")], .dict [("$ref", .str "#/definitions/hidden_wireless_property")], .dict [("$ref",
  .str "#/definitions/wds_wireless_property")], .dict [("$ref", .str "#/definitions/encryption_wireless_property_ap")]])]

def baseSchema_def_sta_wireless_settings : Val := .dict [("allOf", .list [.dict [("properties", .dict [("mode", .dict [("enum",
  .list [.str "station"])])])], .dict [("$ref", .str "#/definitions/base_wireless_settings")], .dict [("$ref",
  .str "#/definitions/ssid_wireless_property")], .dict [("$ref", .str "#/definitions/bssid_wireless_property")], .dict [("$ref",
  .str "#/definitions/wds_wireless_property")], .dict [("$ref", .str "#/definitions/encryption_wireless_property_sta")]])]

def baseSchema_def_adhoc_wireless_settings : Val := .dict [("allOf", .list [.dict [("required", .list [.str "bssid"]), ("properties", .dict [("mode",
  .dict [("enum", .list [.str "adhoc"])]), ("bssid", .dict [("pattern", .str "([0-9A-Fa-f]{2}[:-]){5}([0-9A-Fa-f]{2})"), ("minLength", .int 17)])])],
  .dict [("$ref", .str "#/definitions/base_wireless_settings")], .dict [("$ref", .str "#/definitions/ssid_wireless_property")], .dict [("$ref",
  .str "#/definitions/bssid_wireless_property")], .dict [("$ref", .str "#/definitions/encryption_wireless_property_mesh")]])]

def baseSchema_def_monitor_wireless_settings : Val := .dict [("allOf", .list [.dict [("properties", .dict [("mode", .dict [("enum",
  .list [.str "monitor"])])])], .dict [("$ref", .str "#/definitions/base_wireless_settings")]])]

def baseSchema_def_mesh_wireless_settings : Val := .dict [("allOf", .list [.dict [("properties", .dict [("mode", .dict [("enum",
  .list [.str "802.11s"])])])], .dict [("$ref", .str "#/definitions/base_wireless_settings")], .dict [("$ref",
  .str "#/definitions/mesh_id_wireless_property")], .dict [("$ref", .str "#/definitions/encryption_wireless_property_mesh")]])]

def baseSchema_def_base_radio_settings : Val := .dict [("type", .str "object"), ("required", .list [.str "protocol", .str "name", .str "channel",
  .str "channel_width"]), ("properties", .dict [("name", .dict [("type", .str "string"), ("minLength", .int 3)]), ("protocol", .dict [("type",
  .str "string")]), ("phy", .dict [("type", .str "string")]), ("channel", .dict [("type", .str "integer")]), ("channel_width", .dict [("type",
  .str "integer")]), ("tx_power", .dict [("type", .str "integer")]), ("country", .dict [("type", .str "string"), ("maxLength", .int 2), ("enum",
  .list [.str "00", .str "AF", .str "AX", .str "AL", .str "DZ", .str "AS", .str "AD", .str "AO", .str "AI", .str "AQ", .str "AG", .str "AR",
  .str "AM", .str "AW", .str "AU", .str "AT", .str "AZ", .str "BS", .str "BH", .str "BD", .str "BB", .str "BY", .str "BE", .str "BZ", .str "BJ",
  .str "BM", .str "BT", .str "BO", .str "BA", .str "BW", .str "BV", .str "BR", .str "IO", .str "BN", .str "BG", .str "BF", .str "BI", .str "KH",
  .str "CM", .str "CA", .str "CV", .str "KY", .str "CF", .str "TD", .str "CL", .str "CN", .str "CX", .str "CC", .str "CO", .str "KM", .str "CG",
  .str "CD", .str "CK", .str "CR", .str "CI", .str "HR", .str "CU", .str "CY", .str "CZ", .str "DK", .str "DJ", .str "DM", .str "DO", .str "EC",
  .str "EG", .str "SV", .str "GQ", .str "ER", .str "EE", .str "ET", .str "FK", .str "FO", .str "FJ", .str "FI", .str "FR", .str "GF", .str "PF",
  .str "TF", .str "MK", .str "GA", .str "GM", .str "GE", .str "DE", .str "GH", .str "GI", .str "GR", .str "GL", .str "GD", .str "GP", .str "GU",
  .str "GT", .str "GG", .str "GN", .str "GW", .str "GY", .str "HT", .str "HM", .str "VA", .str "HN", .str "HK", .str "HU", .str "IS", .str "IN",
  .str "ID", .str "IR", .str "IQ", .str "IE", .str "IM", .str "IL", .str "IT", .str "JM", .str "JP", .str "JE", .str "JO", .str "KZ", .str "KE",
  .str "KI", .str "KP", .str "KR", .str "KW", .str "KG", .str "LA", .str "LV", .str "LB", .str "LS", .str "LR", .str "LY", .str "LI", .str "LT",
  .str "LU", .str "MO", .str "MG", .str "MW", .str "MY", .str "MV", .str "ML", .str "MT", .str "MH", .str "MQ", .str "MR", .str "MU", .str "YT",
  .str "MX", .str "FM", .str "MD", .str "MC", .str "MN", .str "MS", .str "MA", .str "MZ", .str "MM", .str "NA", .str "NR", .str "NP", .str "NL",
  .str "AN", .str "NC", .str "NZ", .str "NI", .str "NE", .str "NG", .str "NU", .str "NF", .str "MP", .str "NO", .str "OM", .str "PK", .str "PW",
  .str "PS", .str "PA", .str "PG", .str "PY", .str "PE", .str "PH", .str "PN", .str "PL", .str "PT", .str "PR", .str "QA", .str "RE", .str "RO",
  .str "RU", .str "RW", .str "SH", .str "KN", .str "LC", .str "PM", .str "VC", .str "WS", .str "SM", .str "ST", .str "SA", .str "SN", .str "CS",
  .str "SC", .str "SL", .str "SG", .str "SK", .str "SI", .str "SB", .str "SO", .str "ZA", .str "GS", .str "ES", .str "LK", .str "SD", .str "SR",
  .str "SJ", .str "SZ", .str "SE", .str "CH", .str "SY", .str "TW", .str "TJ", .str "TZ", .str "TH", .str "TL", .str "TG", .str "TK", .str "TO",
  .str "TT", .str "TN", .str "TR", .str "TM", .str "TC", .str "TV", .str "UG", .str "UA", .str "AE", .str "GB", .str "US", .str "UM", .str "UY",
  .str "UZ", .str "VU", .str "VE", .str "VN", .str "VG", .str "VI", .str "WF", .str "EH", .str "YE", .str "ZM", .str "ZW"])]), ("disabled",
  .dict [("type", .str "boolean")])])]

def baseSchema_def_radio_2ghz_channels : Val := .dict [("properties", .dict [("channel", .dict [("enum", .list [.int 0, .int 1, .int 2, .int 3,
  .int 4, .int 5, .int 6, .int 7, .int 8, .int 9, .int 10, .int 11, .int 12, .int 13])])])]

def baseSchema_def_radio_5ghz_channels : Val := .dict [("properties", .dict [("channel", .dict [("enum", .list [.int 0, .int 36, .int 40, .int 44,
  .int 48, .int 52, .int 56, .int 60, .int 64, .int 100, .int 104, .int 108, .int 112, .int 116, .int 120, .int 124, .int 128, .int 132, .int 136,
  .int 140, .int 144, .int 149, .int 153, .int 157, .int 161, .int 165, .int 169, .int 173, .int 177])])])]

def baseSchema_def_radio_6ghz_channels : Val := .dict [("properties", .dict [("channel", .dict [("enum", .list [.int 37, .int 41, .int 45, .int 49,
  .int 53, .int 57, .int 61, .int 65, .int 101, .int 105, .int 109, .int 113, .int 117, .int 121, .int 125, .int 129, .int 133, .int 137, .int 141,
  .int 145])])])]

def baseSchema_def_radio_60ghz_channels : Val := .dict [("properties", .dict [("channel", .dict [("enum", .list [.int 1, .int 2, .int 3, .int 4,
  .int 5, .int 6, .int 9, .int 10, .int 11, .int 12, .int 13, .int 17, .int 18, .int 19, .int 20, .int 25, .int 26, .int 27])])])]

def baseSchema_def_radio_2and5_channels : Val := .dict [("properties", .dict [("channel", .dict [("enum", .list [.int 0, .int 1, .int 2, .int 3,
  .int 4, .int 5, .int 6, .int 7, .int 8, .int 9, .int 10, .int 11, .int 12, .int 13, .int 36, .int 40, .int 44, .int 48, .int 52, .int 56, .int 60,
  .int 64, .int 100, .int 104, .int 108, .int 112, .int 116, .int 120, .int 124, .int 128, .int 132, .int 136, .int 140, .int 144, .int 149,
  .int 153, .int 157, .int 161, .int 165, .int 169, .int 173, .int 177])])])]

def baseSchema_def_radio_legacy_channel_width : Val := .dict [("properties", .dict [("channel_width", .dict [("enum", .list [.int 20])])])]

def baseSchema_def_radio_n_channel_width : Val := .dict [("properties", .dict [("channel_width", .dict [("enum", .list [.int 20, .int 40])])])]

def baseSchema_def_radio_ac_channel_width : Val := .dict [("properties", .dict [("channel_width", .dict [("enum", .list [.int 20, .int 40, .int 80,
  .int 160])])])]

def baseSchema_def_radio_ax_channel_width : Val := .dict [("properties", .dict [("channel_width", .dict [("enum", .list [.int 20, .int 40, .int 80,
  .int 160])])])]

def baseSchema_def_radio_80211bg_settings : Val := .dict [("allOf", .list [.dict [("properties", .dict [("protocol", .dict [("enum",
  .list [.str "802.11b", .str "802.11g"])])])], .dict [("$ref", .str "#/definitions/base_radio_settings")], .dict [("$ref",
  .str "#/definitions/radio_2ghz_channels")], .dict [("$ref", .str "#/definitions/radio_legacy_channel_width")]])]

def baseSchema_def_radio_80211a_settings : Val := .dict [("allOf", .list [.dict [("properties", .dict [("protocol", .dict [("enum",
  .list [.str "802.11a"])])])], .dict [("$ref", .str "#/definitions/base_radio_settings")], .dict [("$ref",
  .str "#/definitions/radio_5ghz_channels")], .dict [("$ref", .str "#/definitions/radio_legacy_channel_width")]])]

def baseSchema_def_radio_80211gn_settings : Val := .dict [("allOf", .list [.dict [("properties", .dict [("protocol", .dict [("enum",
  .list [.str "802.11n"])])])], .dict [("$ref", .str "#/definitions/base_radio_settings")], .dict [("$ref",
  .str "#/definitions/radio_2ghz_channels")], .dict [("$ref", .str "#/definitions/radio_n_channel_width")]])]

def baseSchema_def_radio_80211an_settings : Val := .dict [("allOf", .list [.dict [("properties", .dict [("protocol", .dict [("enum",
  .list [.str "802.11n"])])])], .dict [("$ref", .str "#/definitions/base_radio_settings")], .dict [("$ref",
  .str "#/definitions/radio_5ghz_channels")], .dict [("$ref", .str "#/definitions/radio_n_channel_width")]])]

def baseSchema_def_radio_80211ac_5ghz_settings : Val := .dict [("allOf", .list [.dict [("properties", .dict [("protocol", .dict [("enum",
  .list [.str "802.11ac"])])])], .dict [("$ref", .str "#/definitions/base_radio_settings")], .dict [("$ref",
  .str "#/definitions/radio_5ghz_channels")], .dict [("$ref", .str "#/definitions/radio_ac_channel_width")]])]

def baseSchema_def_radio_80211ax_2ghz_settings : Val := .dict [("allOf", .list [.dict [("properties", .dict [("protocol", .dict [("enum",
  .list [.str "802.11ax"])])])], .dict [("$ref", .str "#/definitions/base_radio_settings")], .dict [("$ref",
  .str "#/definitions/radio_2ghz_channels")], .dict [("$ref", .str "#/definitions/radio_ax_channel_width")]])]

def baseSchema_def_radio_80211ax_5ghz_settings : Val := .dict [("allOf", .list [.dict [("properties", .dict [("protocol", .dict [("enum",
  .list [.str "802.11ax"])])])], .dict [("$ref", .str "#/definitions/base_radio_settings")], .dict [("$ref",
  .str "#/definitions/radio_5ghz_channels")], .dict [("$ref", .str "#/definitions/radio_ax_channel_width")]])]

def baseSchema_def_radio_80211ax_6ghz_settings : Val := .dict [("allOf", .list [.dict [("properties", .dict [("protocol", .dict [("enum",
  .list [.str "802.11ax"])])])], .dict [("$ref", .str "#/definitions/base_radio_settings")], .dict [("$ref",
  .str "#/definitions/radio_6ghz_channels")], .dict [("$ref", .str "#/definitions/radio_ax_channel_width")]])]

def baseSchema_def_radio_80211ad_60ghz_settings : Val := .dict [("allOf", .list [.dict [("properties", .dict [("protocol", .dict [("enum",
  .list [.str "802.11ad"])])])], .dict [("$ref", .str "#/definitions/base_radio_settings")], .dict [("$ref",
  .str "#/definitions/radio_60ghz_channels")], .dict [("$ref", .str "#/definitions/radio_ax_channel_width")]])]

def baseSchema_definitions : VDict := [("base_address", baseSchema_def_base_address), ("static_address", baseSchema_def_static_address),
  ("ipv4_address", baseSchema_def_ipv4_address), ("ipv6_address", baseSchema_def_ipv6_address), ("dhcp_address", baseSchema_def_dhcp_address),
  ("base_interface_settings", baseSchema_def_base_interface_settings), ("interface_settings", baseSchema_def_interface_settings),
  ("network_interface", baseSchema_def_network_interface), ("wireless_interface", baseSchema_def_wireless_interface), ("bridge_interface",
  baseSchema_def_bridge_interface), ("base_wireless_settings", baseSchema_def_base_wireless_settings), ("ssid_wireless_property",
  baseSchema_def_ssid_wireless_property), ("hidden_wireless_property", baseSchema_def_hidden_wireless_property), ("bssid_wireless_property",
  baseSchema_def_bssid_wireless_property), ("wds_wireless_property", baseSchema_def_wds_wireless_property), ("mesh_id_wireless_property",
  baseSchema_def_mesh_id_wireless_property), ("encryption_wireless_property_ap", baseSchema_def_encryption_wireless_property_ap),
  ("encryption_wireless_property_sta", baseSchema_def_encryption_wireless_property_sta), ("encryption_wireless_property_mesh",
  baseSchema_def_encryption_wireless_property_mesh), ("encryption_none", baseSchema_def_encryption_none), ("encryption_base_settings",
  baseSchema_def_encryption_base_settings), ("encryption_cipher_property", baseSchema_def_encryption_cipher_property),
  ("encryption_cipher_ccmp_required", baseSchema_def_encryption_cipher_ccmp_required), ("encryption_mfp_property",
  baseSchema_def_encryption_mfp_property), ("encryption_mfp_property_required", baseSchema_def_encryption_mfp_property_required),
  ("encryption_mfp_property_optional", baseSchema_def_encryption_mfp_property_optional), ("encryption_owe", baseSchema_def_encryption_owe),
  ("encryption_wpa3_personal", baseSchema_def_encryption_wpa3_personal), ("encryption_wpa3_personal_mixed",
  baseSchema_def_encryption_wpa3_personal_mixed), ("encryption_wpa_personal", baseSchema_def_encryption_wpa_personal),
  ("encryption_wpa_enterprise_ap_base_settings", baseSchema_def_encryption_wpa_enterprise_ap_base_settings),
  ("encryption_wpa_enterprise_sta_base_settings", baseSchema_def_encryption_wpa_enterprise_sta_base_settings),
  ("encryption_wpa3_enterprise_base_settings", baseSchema_def_encryption_wpa3_enterprise_base_settings),
  ("encryption_wpa3_enterprise_mixed_base_settings", baseSchema_def_encryption_wpa3_enterprise_mixed_base_settings),
  ("encryption_wpa3_enterprise_ap", baseSchema_def_encryption_wpa3_enterprise_ap), ("encryption_wpa3_enterprise_ap_mixed",
  baseSchema_def_encryption_wpa3_enterprise_ap_mixed), ("encryption_wpa3_enterprise_sta", baseSchema_def_encryption_wpa3_enterprise_sta),
  ("encryption_wpa3_enterprise_sta_mixed", baseSchema_def_encryption_wpa3_enterprise_sta_mixed), ("encryption_wpa_enterprise_base_settings",
  baseSchema_def_encryption_wpa_enterprise_base_settings), ("encryption_wpa_enterprise_ap", baseSchema_def_encryption_wpa_enterprise_ap),
  ("encryption_wpa_enterprise_sta", baseSchema_def_encryption_wpa_enterprise_sta), ("encryption_wep", baseSchema_def_encryption_wep),
  ("encryption_wps", baseSchema_def_encryption_wps), ("ap_wireless_settings", baseSchema_def_ap_wireless_settings), ("sta_wireless_settings",
  baseSchema_def_sta_wireless_settings), ("adhoc_wireless_settings", baseSchema_def_adhoc_wireless_settings), ("monitor_wireless_settings",
  baseSchema_def_monitor_wireless_settings), ("mesh_wireless_settings", baseSchema_def_mesh_wireless_settings), ("base_radio_settings",
  baseSchema_def_base_radio_settings), ("radio_2ghz_channels", baseSchema_def_radio_2ghz_channels), ("radio_5ghz_channels",
  baseSchema_def_radio_5ghz_channels), ("radio_6ghz_channels", baseSchema_def_radio_6ghz_channels), ("radio_60ghz_channels",
  baseSchema_def_radio_60ghz_channels), ("radio_2and5_channels", baseSchema_def_radio_2and5_channels), ("radio_legacy_channel_width",
  baseSchema_def_radio_legacy_channel_width), ("radio_n_channel_width", baseSchema_def_radio_n_channel_width), ("radio_ac_channel_width",
  baseSchema_def_radio_ac_channel_width), ("radio_ax_channel_width", baseSchema_def_radio_ax_channel_width), ("radio_80211bg_settings",
  baseSchema_def_radio_80211bg_settings), ("radio_80211a_settings", baseSchema_def_radio_80211a_settings), ("radio_80211gn_settings",
  baseSchema_def_radio_80211gn_settings), ("radio_80211an_settings", baseSchema_def_radio_80211an_settings), ("radio_80211ac_5ghz_settings",
  baseSchema_def_radio_80211ac_5ghz_settings), ("radio_80211ax_2ghz_settings", baseSchema_def_radio_80211ax_2ghz_settings),
  ("radio_80211ax_5ghz_settings", baseSchema_def_radio_80211ax_5ghz_settings), ("radio_80211ax_6ghz_settings",
  baseSchema_def_radio_80211ax_6ghz_settings), ("radio_80211ad_60ghz_settings", baseSchema_def_radio_80211ad_60ghz_settings)]

def baseSchema_pro_general : Val := .dict [("type", .str "object"), ("properties", .dict [("hostname", .dict [("type", .str "string"), ("maxLength",
  .int 63), ("minLength", .int 1), ("format", .str "hostname")]), ("timezone", .dict [("type", .str "string")]), ("ula_prefix", .dict [("type",
  .str "string")]), ("maintainer", .dict [("type", .str "string")]), ("description", .dict [("type", .str "string")])])]

def baseSchema_pro_interfaces : Val := .dict [("type", .str "array"), ("uniqueItems", .bool true), ("items", .dict [("oneOf", .list [.dict [("$ref",
  .str "#/definitions/network_interface")], .dict [("$ref", .str "#/definitions/wireless_interface")], .dict [("$ref",
  .str "#/definitions/bridge_interface")]])])]

def baseSchema_pro_radios : Val := .dict [("type", .str "array"), ("uniqueItems", .bool true), ("items", .dict [("oneOf", .list [.dict [("$ref",
  .str "#/definitions/radio_80211ax_2ghz_settings")], .dict [("$ref", .str "#/definitions/radio_80211gn_settings")], .dict [("$ref",
  .str "#/definitions/radio_80211bg_settings")], .dict [("$ref", .str "#/definitions/radio_80211ax_5ghz_settings")], .dict [("$ref",
  .str "#/definitions/radio_80211ac_5ghz_settings")], .dict [("$ref", .str "#/definitions/radio_80211an_settings")], .dict [("$ref",
  .str "#/definitions/radio_80211a_settings")], .dict [("$ref", .str "#/definitions/radio_80211ax_6ghz_settings")], .dict [("$ref",
  .str "#/definitions/radio_80211ad_60ghz_settings")]])])]

def baseSchema_pro_dns_servers : Val := .dict [("type", .str "array"), ("uniqueItems", .bool true), ("items", .dict [("type", .str "string")])]

def baseSchema_pro_dns_search : Val := .dict [("type", .str "array"), ("uniqueItems", .bool true), ("items", .dict [("type", .str "string"),
  ("format", .str "hostname")])]

def baseSchema_pro_routes : Val := .dict [("type", .str "array"), ("uniqueItems", .bool true), ("items", .dict [("type", .str "object"), ("required",
  .list [.str "device", .str "destination", .str "next", .str "cost"]), ("properties", .dict [("device", .dict [("type", .str "string")]),
  ("destination", .dict [("type", .str "string")]), ("next", .dict [("type", .str "string")]), ("cost", .dict [("type", .str "integer")]), ("source",
  .dict [("type", .str "string")])])])]

def baseSchema_pro_files : Val := .dict [("type", .str "array"), ("uniqueItems", .bool true), ("items", .dict [("type", .str "object"),
  ("additionalProperties", .bool false), ("required", .list [.str "path", .str "mode", .str "contents"]), ("properties", .dict [("path",
  .dict [("type", .str "string"), ("minLength", .int 2)]), ("mode", .dict [("type", .str "string"), ("maxLength", .int 4), ("minLength", .int 3),
  ("pattern", .str "^[0-7]*$")]), ("contents", .dict [("type", .str "string")])])])]

def baseSchema_properties : VDict := [("general", baseSchema_pro_general), ("interfaces", baseSchema_pro_interfaces), ("radios",
  baseSchema_pro_radios), ("dns_servers", baseSchema_pro_dns_servers), ("dns_search", baseSchema_pro_dns_search), ("routes", baseSchema_pro_routes),
  ("files", baseSchema_pro_files)]

/-- schema.py -/
def baseSchema : VDict := [("type", .str "object"), ("definitions", .dict baseSchema_definitions), ("properties", .dict baseSchema_properties)]

def owPatch_def_base_interface_settings : Val := .dict [("properties", .dict [("network", .dict [("type", .str "string"), ("maxLength", .int 15),
  ("pattern", .str "^[a-zA-z0-9_\\.\\-]*$")])])]

def owPatch_def_vlan_interface_settings : Val := .dict [("properties", .dict [("name", .dict []), ("vid", .dict [("type", .str "integer"),
  ("minimum", .int 0)]), ("ingress_qos_mapping", .dict [("type", .str "array"), ("uniqueItems", .bool true), ("items", .dict [("type",
  .str "string"), ("pattern", .str "^[0-9]\\d*:[0-9]\\d*$")])]), ("egress_qos_mapping", .dict [("type", .str "array"), ("uniqueItems", .bool true),
  ("items", .dict [("type", .str "string"), ("pattern", .str "^[0-9]\\d*:[0-9]\\d*$")])])])]

def owPatch_def_wireless_interface : Val := .dict [("properties", .dict [("wireless", .dict [("properties", .dict [("network", .dict [("type",
  .str "array"), ("uniqueItems", .bool true), ("items", .dict [("type", .str "string"), ("$ref",
  .str "#/definitions/base_interface_settings/properties/network")])])])])])]

def owPatch_def_ap_wireless_settings : Val := .dict [("allOf", .list [.dict [("properties", .dict [("wmm", .dict [("type", .str "boolean")]),
  ("isolate", .dict [("type", .str "boolean")]), ("ieee80211r", .dict [("type", .str "boolean")]), ("reassociation_deadline", .dict [("type",
  .str "integer"), ("minimum", .int 1000), ("maximum", .int 65535)]), ("ft_psk_generate_local", .dict [("type", .str "boolean")]), ("ft_over_ds",
  .dict [("type", .str "boolean")]), ("rsn_preauth", .dict [("type", .str "boolean")]), ("macfilter", .dict [("type", .str "string"), ("enum",
  .list [.str "disable", .str "allow", .str "deny"])]), ("maclist", .dict [("type", .str "array"), ("items", .dict [("type", .str "string"),
  ("pattern", .str "^([0-9A-Fa-f]{2}[:-]){5}([0-9A-Fa-f]{2})$"), ("minLength", .int 17), ("maxLength", .int 17)])])])]])]

def owPatch_def_bridge_interface : Val := .dict [("allOf", .list [.dict [("properties", .dict [("igmp_snooping", .dict [("type", .str "boolean")]),
  ("multicast_querier", .dict [("type", .str "boolean")]), ("query_interval", .dict [("type", .str "integer")]), ("query_response_interval",
  .dict [("type", .str "integer")]), ("last_member_interval", .dict [("type", .str "integer")]), ("hash_max", .dict [("type", .str "integer")]),
  ("robustness", .dict [("type", .str "integer")]), ("forward_delay", .dict [("type", .str "integer"), ("minimum", .int 2), ("maximum", .int 30)]),
  ("hello_time", .dict [("type", .str "integer"), ("minimum", .int 1), ("maximum", .int 10)]), ("priority", .dict [("type", .str "integer"),
  ("minimum", .int 0), ("maximum", .int 65535)]), ("ageing_time", .dict [("type", .str "integer"), ("minimum", .int 10), ("maximum", .int 1000000)]),
  ("max_age", .dict [("type", .str "integer"), ("minimum", .int 0), ("maximum", .int 40)]), ("vlan_filtering", .dict [("type", .str "array"),
  ("items", .dict [("type", .str "object"), ("properties", .dict [("vlan", .dict [("type", .str "integer"), ("minimum", .int 0)]), ("ports",
  .dict [("type", .str "array"), ("items", .dict [("type", .str "object"), ("required", .list [.str "ifname", .str "tagging"]), ("properties",
  .dict [("ifname", .dict [("type", .str "string")]), ("tagging", .dict [("type", .str "string"), ("enum", .list [.str "t", .str "u"])]),
  ("primary_vid", .dict [("type", .str "boolean")])])])])])])])])]])]

def owPatch_def_vlan_8021q : Val := .dict [("type", .str "object"), ("required", .list [.str "type", .str "vid"]), ("allOf",
  .list [.dict [("properties", .dict [("type", .dict [("type", .str "string"), ("enum", .list [.str "8021q"])])])], .dict [("$ref",
  .str "#/definitions/base_interface_settings")], .dict [("$ref", .str "#/definitions/interface_settings")], .dict [("$ref",
  .str "#/definitions/vlan_interface_settings")]])]

def owPatch_def_vlan_8021ad : Val := .dict [("type", .str "object"), ("required", .list [.str "type", .str "vid"]), ("allOf",
  .list [.dict [("properties", .dict [("type", .dict [("type", .str "string"), ("enum", .list [.str "8021ad"])])])], .dict [("$ref",
  .str "#/definitions/base_interface_settings")], .dict [("$ref", .str "#/definitions/interface_settings")], .dict [("$ref",
  .str "#/definitions/vlan_interface_settings")]])]

def owPatch_def_dialup_interface : Val := .dict [("required", .list [.str "proto", .str "username", .str "password"]), ("allOf",
  .list [.dict [("properties", .dict [("type", .dict [("type", .str "string"), ("enum", .list [.str "dialup"])]), ("proto", .dict [("type",
  .str "string"), ("enum", .list [.str "3g", .str "6in4", .str "aiccu", .str "l2tp", .str "ncm", .str "ppp", .str "pppoa", .str "pppoe", .str "pptp",
  .str "qmi", .str "wwan"])]), ("username", .dict [("type", .str "string")]), ("password", .dict [("type", .str "string")])])], .dict [("$ref",
  .str "#/definitions/base_interface_settings")], .dict [("$ref", .str "#/definitions/interface_settings")]])]

def owPatch_def_modemmanager_interface : Val := .dict [("type", .str "object"), ("required", .list [.str "name", .str "device"]), ("allOf",
  .list [.dict [("properties", .dict [("type", .dict [("type", .str "string"), ("enum", .list [.str "modem-manager"])]), ("apn", .dict [("type",
  .str "string")]), ("pin", .dict [("type", .str "string")]), ("device", .dict [("type", .str "string")]), ("username", .dict [("type",
  .str "string")]), ("password", .dict [("type", .str "string")]), ("metric", .dict [("type", .str "integer")]), ("iptype", .dict [("type",
  .str "string"), ("enum", .list [.str "ipv4", .str "ipv6", .str "ipv4v6"])]), ("lowpower", .dict [("type", .str "boolean")]), ("signalrate",
  .dict [("type", .str "integer")]), ("force_link", .dict [("type", .str "boolean")]), ("loglevel", .dict [("type", .str "string"), ("enum",
  .list [.str "ERR", .str "WARN", .str "INFO", .str "DEBUG"])])])], .dict [("$ref", .str "#/definitions/base_interface_settings")]])]

def owPatch_def_wireguard_interface : Val := .dict [("type", .str "object"), ("required", .list [.str "private_key"]), ("allOf",
  .list [.dict [("properties", .dict [("type", .dict [("type", .str "string"), ("enum", .list [.str "wireguard"])]), ("private_key", .dict [("type",
  .str "string"), ("maxLength", .int 44), ("pattern", .str "^[^\\s]*$")]), ("port", .dict [("type", .str "integer"), ("maximum", .int 65535),
  ("minimum", .int 1)]), ("mtu", .dict [("type", .str "integer")]), ("nohostroute", .dict [("type", .str "boolean")]), ("fwmark", .dict [("type",
  .str "string")]), ("ip6prefix", .dict [("type", .str "array"), ("items", .dict [("type", .str "string"), ("uniqueItems", .bool true)])]),
  ("addresses", .dict [("type", .str "array"), ("uniqueItems", .bool true), ("items", .dict [("required", .list [.str "proto", .str "family",
  .str "address", .str "mask"]), ("oneOf", .list [.dict [("type", .str "object"), ("properties", .dict [("proto", .dict [("type", .str "string"),
  ("enum", .list [.str "static"])]), ("family", .dict [("type", .str "string"), ("enum", .list [.str "ipv4"])]), ("address", .dict [("type",
  .str "string"), ("minLength", .int 7)]), ("mask", .dict [("type", .str "number"), ("minimum", .int 8)])])], .dict [("type", .str "object"),
  ("properties", .dict [("proto", .dict [("type", .str "string"), ("enum", .list [.str "static"])]), ("family", .dict [("type", .str "string"),
  ("enum", .list [.str "ipv6"])]), ("address", .dict [("type", .str "string"), ("minLength", .int 3), ("format", .str "ipv6")]), ("mask",
  .dict [("type", .str "number"), ("minimum", .int 4)])])]])])])])], .dict [("$ref", .str "#/definitions/base_interface_settings")]])]

def owPatch_def_vxlan_interface : Val := .dict [("required", .list [.str "vtep", .str "port", .str "vni", .str "tunlink"]), ("allOf",
  .list [.dict [("properties", .dict [("type", .dict [("type", .str "string"), ("enum", .list [.str "vxlan"])]), ("vtep", .dict [("type",
  .str "string")]), ("port", .dict [("type", .str "integer"), ("minimum", .int 1), ("maximum", .int 65535)]), ("vni", .dict [("type",
  .list [.str "integer", .str "string"]), ("minimum", .int 1), ("maximum", .int 16777216)]), ("tunlink", .dict [("type", .str "string")]), ("rxcsum",
  .dict [("type", .str "boolean")]), ("txcsum", .dict [("type", .str "boolean")]), ("mtu", .dict [("type", .str "integer")]), ("ttl", .dict [("type",
  .str "integer")]), ("mac", .dict [("type", .str "string"), ("pattern", .str "^(([0-9A-Fa-f]{2}[:-]){5}([0-9A-Fa-f]{2})|)$"), ("maxLength",
  .int 17)])])], .dict [("$ref", .str "#/definitions/base_interface_settings")]])]

def owPatch_def_base_radio_settings : Val := .dict [("properties", .dict [("driver", .dict [("type", .str "string"), ("enum", .list [.str "mac80211",
  .str "atheros", .str "ath5k", .str "ath9k", .str "broadcom"])])])]

def owPatch_def_radio_hwmode_11g : Val := .dict [("properties", .dict [("hwmode", .dict [("type", .str "string"), ("enum", .list [.str "11g"])])])]

def owPatch_def_radio_hwmode_11a : Val := .dict [("properties", .dict [("hwmode", .dict [("type", .str "string"), ("enum", .list [.str "11a"])])])]

def owPatch_def_radio_2g_band : Val := .dict [("properties", .dict [("band", .dict [("type", .str "string"), ("enum", .list [.str "2g"])])])]

def owPatch_def_radio_5g_band : Val := .dict [("properties", .dict [("band", .dict [("type", .str "string"), ("enum", .list [.str "5g"])])])]

def owPatch_def_radio_6g_band : Val := .dict [("properties", .dict [("band", .dict [("type", .str "string"), ("enum", .list [.str "6g"])])])]

def owPatch_def_radio_60g_band : Val := .dict [("properties", .dict [("band", .dict [("type", .str "string"), ("enum", .list [.str "60g"])])])]

def owPatch_def_radio_80211gn_settings : Val := .dict [("allOf", .list [.dict [("$ref", .str "#/definitions/radio_hwmode_11g")], .dict [("$ref",
  .str "#/definitions/radio_2g_band")]])]

def owPatch_def_radio_80211an_settings : Val := .dict [("allOf", .list [.dict [("$ref", .str "#/definitions/radio_hwmode_11a")], .dict [("$ref",
  .str "#/definitions/radio_5g_band")]])]

def owPatch_def_radio_80211ac_5ghz_settings : Val := .dict [("allOf", .list [.dict [("$ref", .str "#/definitions/radio_hwmode_11a")], .dict [("$ref",
  .str "#/definitions/radio_5g_band")]])]

def owPatch_def_radio_80211ax_2ghz_settings : Val := .dict [("allOf", .list [.dict [("$ref", .str "#/definitions/radio_hwmode_11g")], .dict [("$ref",
  .str "#/definitions/radio_2g_band")]])]

def owPatch_def_radio_80211ax_5ghz_settings : Val := .dict [("allOf", .list [.dict [("$ref", .str "#/definitions/radio_hwmode_11a")], .dict [("$ref",
  .str "#/definitions/radio_5g_band")]])]

def owPatch_def_radio_80211ax_6ghz_settings : Val := .dict [("allOf", .list [.dict [("$ref", .str "#/definitions/radio_6g_band")]])]

def owPatch_def_radio_80211ad_60ghz_settings : Val := .dict [("allOf", .list [.dict [("$ref", .str "#/definitions/radio_60g_band")]])]

def owPatch_def_encryption_wpa_enterprise_ap_base_settings : Val := .dict [("properties", .dict [("acct_secret", .dict [("type", .str "string")]),
  ("acct_interval", .dict [("type", .str "integer")]), ("dae_client", .dict [("type", .str "string")]), ("dae_port", .dict [("type",
  .str "integer")]), ("dae_secret", .dict [("type", .str "string")]), ("nasid", .dict [("type", .str "string")])])]

def owPatch_def_encryption_wpa_enterprise_sta_base_settings : Val := .dict [("properties", .dict [("ca_cert_usesystem", .dict [("type",
  .str "boolean")]), ("subject_match", .dict [("type", .str "string")]), ("altsubject_match", .dict [("type", .str "array"), ("items",
  .dict [("type", .str "string")])]), ("domain_match", .dict [("type", .str "array"), ("items", .dict [("type", .str "string")])]),
  ("domain_suffix_match", .dict [("type", .str "array"), ("items", .dict [("type", .str "string")])])])]

def owPatch_definitions : VDict := [("base_interface_settings", owPatch_def_base_interface_settings), ("vlan_interface_settings",
  owPatch_def_vlan_interface_settings), ("wireless_interface", owPatch_def_wireless_interface), ("ap_wireless_settings",
  owPatch_def_ap_wireless_settings), ("bridge_interface", owPatch_def_bridge_interface), ("vlan_8021q", owPatch_def_vlan_8021q), ("vlan_8021ad",
  owPatch_def_vlan_8021ad), ("dialup_interface", owPatch_def_dialup_interface), ("modemmanager_interface", owPatch_def_modemmanager_interface),
  ("wireguard_interface", owPatch_def_wireguard_interface), ("vxlan_interface", owPatch_def_vxlan_interface), ("base_radio_settings",
  owPatch_def_base_radio_settings), ("radio_hwmode_11g", owPatch_def_radio_hwmode_11g), ("radio_hwmode_11a", owPatch_def_radio_hwmode_11a),
  ("radio_2g_band", owPatch_def_radio_2g_band), ("radio_5g_band", owPatch_def_radio_5g_band), ("radio_6g_band", owPatch_def_radio_6g_band),
  ("radio_60g_band", owPatch_def_radio_60g_band), ("radio_80211gn_settings", owPatch_def_radio_80211gn_settings), ("radio_80211an_settings",
  owPatch_def_radio_80211an_settings), ("radio_80211ac_5ghz_settings", owPatch_def_radio_80211ac_5ghz_settings), ("radio_80211ax_2ghz_settings",
  owPatch_def_radio_80211ax_2ghz_settings), ("radio_80211ax_5ghz_settings", owPatch_def_radio_80211ax_5ghz_settings), ("radio_80211ax_6ghz_settings",
  owPatch_def_radio_80211ax_6ghz_settings), ("radio_80211ad_60ghz_settings", owPatch_def_radio_80211ad_60ghz_settings),
  ("encryption_wpa_enterprise_ap_base_settings", owPatch_def_encryption_wpa_enterprise_ap_base_settings),
  ("encryption_wpa_enterprise_sta_base_settings", owPatch_def_encryption_wpa_enterprise_sta_base_settings)]

def owPatch_pro_general : Val := .dict [("properties", .dict [("timezone", .dict [("enum", .list [.str "UTC", .str "Africa/Abidjan",
  .str "Africa/Accra", .str "Africa/Addis Ababa", .str "Africa/Algiers", .str "Africa/Asmara", .str "Africa/Bamako", .str "Africa/Bangui",
  .str "Africa/Banjul", .str "Africa/Bissau", .str "Africa/Blantyre", .str "Africa/Brazzaville", .str "Africa/Bujumbura", .str "Africa/Cairo",
  .str "Africa/Casablanca", .str "Africa/Ceuta", .str "Africa/Conakry", .str "Africa/Dakar", .str "Africa/Dar es Salaam", .str "Africa/Djibouti",
  .str "Africa/Douala", .str "Africa/El Aaiun", .str "Africa/Freetown", .str "Africa/Gaborone", .str "Africa/Harare", .str "Africa/Johannesburg",
  .str "Africa/Juba", .str "Africa/Kampala", .str "Africa/Khartoum", .str "Africa/Kigali", .str "Africa/Kinshasa", .str "Africa/Lagos",
  .str "Africa/Libreville", .str "Africa/Lome", .str "Africa/Luanda", .str "Africa/Lubumbashi", .str "Africa/Lusaka", .str "Africa/Malabo",
  .str "Africa/Maputo", .str "Africa/Maseru", .str "Africa/Mbabane", .str "Africa/Mogadishu", .str "Africa/Monrovia", .str "Africa/Nairobi",
  .str "Africa/Ndjamena", .str "Africa/Niamey", .str "Africa/Nouakchott", .str "Africa/Ouagadougou", .str "Africa/Porto-Novo",
  .str "Africa/Sao Tome", .str "Africa/Tripoli", .str "Africa/Tunis", .str "Africa/Windhoek", .str "America/Adak", .str "America/Anchorage",
  .str "America/Anguilla", .str "America/Antigua", .str "America/Araguaina", .str "America/Argentina/Buenos Aires",
  .str "America/Argentina/Catamarca", .str "America/Argentina/Cordoba", .str "America/Argentina/Jujuy", .str "America/Argentina/La Rioja",
  .str "America/Argentina/Mendoza", .str "America/Argentina/Rio Gallegos", .str "America/Argentina/Salta", .str "America/Argentina/San Juan",
  .str "America/Argentina/San Luis", .str "America/Argentina/Tucuman", .str "America/Argentina/Ushuaia", .str "America/Aruba",
  .str "America/Asuncion", .str "America/Atikokan", .str "America/Bahia", .str "America/Bahia Banderas", .str "America/Barbados",
  .str "America/Belem", .str "America/Belize", .str "America/Blanc-Sablon", .str "America/Boa Vista", .str "America/Bogota", .str "America/Boise",
  .str "America/Cambridge Bay", .str "America/Campo Grande", .str "America/Cancun", .str "America/Caracas", .str "America/Cayenne",
  .str "America/Cayman", .str "America/Chicago", .str "America/Chihuahua", .str "America/Costa Rica", .str "America/Creston", .str "America/Cuiaba",
  .str "America/Curacao", .str "America/Danmarkshavn", .str "America/Dawson", .str "America/Dawson Creek", .str "America/Denver",
  .str "America/Detroit", .str "America/Dominica", .str "America/Edmonton", .str "America/Eirunepe", .str "America/El Salvador",
  .str "America/Fort Nelson", .str "America/Fortaleza", .str "America/Glace Bay", .str "America/Goose Bay", .str "America/Grand Turk",
  .str "America/Grenada", .str "America/Guadeloupe", .str "America/Guatemala", .str "America/Guayaquil", .str "America/Guyana",
  .str "America/Halifax", .str "America/Havana", .str "America/Hermosillo", .str "America/Indiana/Indianapolis", .str "America/Indiana/Knox",
  .str "America/Indiana/Marengo", .str "America/Indiana/Petersburg", .str "America/Indiana/Tell City", .str "America/Indiana/Vevay",
  .str "America/Indiana/Vincennes", .str "America/Indiana/Winamac", .str "America/Inuvik", .str "America/Iqaluit", .str "America/Jamaica",
  .str "America/Juneau", .str "America/Kentucky/Louisville", .str "America/Kentucky/Monticello", .str "America/Kralendijk", .str "America/La Paz",
  .str "America/Lima", .str "America/Los Angeles", .str "America/Lower Princes", .str "America/Maceio", .str "America/Managua",
  .str "America/Manaus", .str "America/Marigot", .str "America/Martinique", .str "America/Matamoros", .str "America/Mazatlan",
  .str "America/Menominee", .str "America/Merida", .str "America/Metlakatla", .str "America/Mexico City", .str "America/Miquelon",
  .str "America/Moncton", .str "America/Monterrey", .str "America/Montevideo", .str "America/Montreal", .str "America/Montserrat",
  .str "America/Nassau", .str "America/New York", .str "America/Nipigon", .str "America/Nome", .str "America/Noronha",
  .str "America/North Dakota/Beulah", .str "America/North Dakota/Center", .str "America/North Dakota/New Salem", .str "America/Nuuk",
  .str "America/Ojinaga", .str "America/Panama", .str "America/Pangnirtung", .str "America/Paramaribo", .str "America/Phoenix",
  .str "America/Port of Spain", .str "America/Port-au-Prince", .str "America/Porto Velho", .str "America/Puerto Rico", .str "America/Punta Arenas",
  .str "America/Rainy River", .str "America/Rankin Inlet", .str "America/Recife", .str "America/Regina", .str "America/Resolute",
  .str "America/Rio Branco", .str "America/Santa Isabel", .str "America/Santarem", .str "America/Santiago", .str "America/Santo Domingo",
  .str "America/Sao Paulo", .str "America/Scoresbysund", .str "America/Sitka", .str "America/Shiprock", .str "America/St Barthelemy",
  .str "America/St Johns", .str "America/St Kitts", .str "America/St Lucia", .str "America/St Thomas", .str "America/St Vincent",
  .str "America/Swift Current", .str "America/Tegucigalpa", .str "America/Thule", .str "America/Thunder Bay", .str "America/Tijuana",
  .str "America/Toronto", .str "America/Tortola", .str "America/Vancouver", .str "America/Whitehorse", .str "America/Winnipeg",
  .str "America/Yakutat", .str "America/Yellowknife", .str "Antarctica/Casey", .str "Antarctica/Davis", .str "Antarctica/DumontDUrville",
  .str "Antarctica/Macquarie", .str "Antarctica/Mawson", .str "Antarctica/McMurdo", .str "Antarctica/Palmer", .str "Antarctica/Rothera",
  .str "Antarctica/South Pole", .str "Antarctica/Syowa", .str "Antarctica/Troll", .str "Antarctica/Vostok", .str "Arctic/Longyearbyen",
  .str "Asia/Aden", .str "Asia/Almaty", .str "Asia/Amman", .str "Asia/Anadyr", .str "Asia/Aqtau", .str "Asia/Aqtobe", .str "Asia/Ashgabat",
  .str "Asia/Atyrau", .str "Asia/Baghdad", .str "Asia/Bahrain", .str "Asia/Baku", .str "Asia/Bangkok", .str "Asia/Barnaul", .str "Asia/Beirut",
  .str "Asia/Bishkek", .str "Asia/Brunei", .str "Asia/Chita", .str "Asia/Choibalsan", .str "Asia/Chongqing", .str "Asia/Colombo",
  .str "Asia/Damascus", .str "Asia/Dhaka", .str "Asia/Dili", .str "Asia/Dubai", .str "Asia/Dushanbe", .str "Asia/Famagusta", .str "Asia/Gaza",
  .str "Asia/Harbin", .str "Asia/Hebron", .str "Asia/Ho Chi Minh", .str "Asia/Hong Kong", .str "Asia/Hovd", .str "Asia/Irkutsk", .str "Asia/Jakarta",
  .str "Asia/Jayapura", .str "Asia/Jerusalem", .str "Asia/Kabul", .str "Asia/Kamchatka", .str "Asia/Karachi", .str "Asia/Kashgar",
  .str "Asia/Kathmandu", .str "Asia/Khandyga", .str "Asia/Kolkata", .str "Asia/Krasnoyarsk", .str "Asia/Kuala Lumpur", .str "Asia/Kuching",
  .str "Asia/Kuwait", .str "Asia/Macau", .str "Asia/Magadan", .str "Asia/Makassar", .str "Asia/Manila", .str "Asia/Muscat", .str "Asia/Nicosia",
  .str "Asia/Novokuznetsk", .str "Asia/Novosibirsk", .str "Asia/Omsk", .str "Asia/Oral", .str "Asia/Phnom Penh", .str "Asia/Pontianak",
  .str "Asia/Pyongyang", .str "Asia/Qatar", .str "Asia/Qostanay", .str "Asia/Qyzylorda", .str "Asia/Rangoon", .str "Asia/Riyadh",
  .str "Asia/Sakhalin", .str "Asia/Samarkand", .str "Asia/Seoul", .str "Asia/Shanghai", .str "Asia/Singapore", .str "Asia/Srednekolymsk",
  .str "Asia/Taipei", .str "Asia/Tashkent", .str "Asia/Tbilisi", .str "Asia/Tehran", .str "Asia/Thimphu", .str "Asia/Tokyo", .str "Asia/Tomsk",
  .str "Asia/Ulaanbaatar", .str "Asia/Urumqi", .str "Asia/Ust-Nera", .str "Asia/Vientiane", .str "Asia/Vladivostok", .str "Asia/Yakutsk",
  .str "Asia/Yangon", .str "Asia/Yekaterinburg", .str "Asia/Yerevan", .str "Atlantic/Azores", .str "Atlantic/Bermuda", .str "Atlantic/Canary",
  .str "Atlantic/Cape Verde", .str "Atlantic/Faroe", .str "Atlantic/Madeira", .str "Atlantic/Reykjavik", .str "Atlantic/South Georgia",
  .str "Atlantic/St Helena", .str "Atlantic/Stanley", .str "Australia/Adelaide", .str "Australia/Brisbane", .str "Australia/Broken Hill",
  .str "Australia/Currie", .str "Australia/Darwin", .str "Australia/Eucla", .str "Australia/Hobart", .str "Australia/Lindeman",
  .str "Australia/Lord Howe", .str "Australia/Melbourne", .str "Australia/Perth", .str "Australia/Sydney", .str "Etc/GMT", .str "Etc/GMT+1",
  .str "Etc/GMT+10", .str "Etc/GMT+11", .str "Etc/GMT+12", .str "Etc/GMT+2", .str "Etc/GMT+3", .str "Etc/GMT+4", .str "Etc/GMT+5", .str "Etc/GMT+6",
  .str "Etc/GMT+7", .str "Etc/GMT+8", .str "Etc/GMT+9", .str "Etc/GMT-1", .str "Etc/GMT-10", .str "Etc/GMT-11", .str "Etc/GMT-12", .str "Etc/GMT-13",
  .str "Etc/GMT-14", .str "Etc/GMT-2", .str "Etc/GMT-3", .str "Etc/GMT-4", .str "Etc/GMT-5", .str "Etc/GMT-6", .str "Etc/GMT-7", .str "Etc/GMT-8",
  .str "Etc/GMT-9", .str "Europe/Amsterdam", .str "Europe/Andorra", .str "Europe/Astrakhan", .str "Europe/Athens", .str "Europe/Belgrade",
  .str "Europe/Berlin", .str "Europe/Bratislava", .str "Europe/Brussels", .str "Europe/Bucharest", .str "Europe/Budapest", .str "Europe/Busingen",
  .str "Europe/Chisinau", .str "Europe/Copenhagen", .str "Europe/Dublin", .str "Europe/Gibraltar", .str "Europe/Guernsey", .str "Europe/Helsinki",
  .str "Europe/Isle of Man", .str "Europe/Istanbul", .str "Europe/Jersey", .str "Europe/Kaliningrad", .str "Europe/Kiev", .str "Europe/Kirov",
  .str "Europe/Kyiv", .str "Europe/Lisbon", .str "Europe/Ljubljana", .str "Europe/London", .str "Europe/Luxembourg", .str "Europe/Madrid",
  .str "Europe/Malta", .str "Europe/Mariehamn", .str "Europe/Minsk", .str "Europe/Monaco", .str "Europe/Moscow", .str "Europe/Oslo",
  .str "Europe/Paris", .str "Europe/Podgorica", .str "Europe/Prague", .str "Europe/Riga", .str "Europe/Rome", .str "Europe/Samara",
  .str "Europe/San Marino", .str "Europe/Sarajevo", .str "Europe/Saratov", .str "Europe/Simferopol", .str "Europe/Skopje", .str "Europe/Sofia",
  .str "Europe/Stockholm", .str "Europe/Tallinn", .str "Europe/Tirane", .str "Europe/Ulyanovsk", .str "Europe/Uzhgorod", .str "Europe/Vaduz",
  .str "Europe/Vatican", .str "Europe/Vienna", .str "Europe/Vilnius", .str "Europe/Volgograd", .str "Europe/Warsaw", .str "Europe/Zagreb",
  .str "Europe/Zaporozhye", .str "Europe/Zurich", .str "Indian/Antananarivo", .str "Indian/Chagos", .str "Indian/Christmas", .str "Indian/Cocos",
  .str "Indian/Comoro", .str "Indian/Kerguelen", .str "Indian/Mahe", .str "Indian/Maldives", .str "Indian/Mauritius", .str "Indian/Mayotte",
  .str "Indian/Reunion", .str "Pacific/Apia", .str "Pacific/Auckland", .str "Pacific/Bougainville", .str "Pacific/Chatham", .str "Pacific/Chuuk",
  .str "Pacific/Easter", .str "Pacific/Efate", .str "Pacific/Enderbury", .str "Pacific/Fakaofo", .str "Pacific/Fiji", .str "Pacific/Funafuti",
  .str "Pacific/Galapagos", .str "Pacific/Gambier", .str "Pacific/Guadalcanal", .str "Pacific/Guam", .str "Pacific/Honolulu",
  .str "Pacific/Johnston", .str "Pacific/Kanton", .str "Pacific/Kiritimati", .str "Pacific/Kosrae", .str "Pacific/Kwajalein", .str "Pacific/Majuro",
  .str "Pacific/Marquesas", .str "Pacific/Midway", .str "Pacific/Nauru", .str "Pacific/Niue", .str "Pacific/Norfolk", .str "Pacific/Noumea",
  .str "Pacific/Pago Pago", .str "Pacific/Palau", .str "Pacific/Pitcairn", .str "Pacific/Pohnpei", .str "Pacific/Ponape",
  .str "Pacific/Port Moresby", .str "Pacific/Rarotonga", .str "Pacific/Saipan", .str "Pacific/Tahiti", .str "Pacific/Tarawa",
  .str "Pacific/Tongatapu", .str "Pacific/Truk", .str "Pacific/Wake", .str "Pacific/Wallis"])])])]

def owPatch_pro_interfaces : Val := .dict [("items", .dict [("oneOf", .list [.dict [("$ref", .str "#/definitions/dialup_interface")], .dict [("$ref",
  .str "#/definitions/modemmanager_interface")], .dict [("$ref", .str "#/definitions/vxlan_interface")], .dict [("$ref",
  .str "#/definitions/wireguard_interface")], .dict [("$ref", .str "#/definitions/vlan_8021q")], .dict [("$ref",
  .str "#/definitions/vlan_8021ad")]])])]

def owPatch_pro_routes : Val := .dict [("items", .dict [("properties", .dict [("type", .dict [("type", .str "string"), ("enum",
  .list [.str "unicast", .str "local", .str "broadcast", .str "multicast", .str "unreachable", .str "prohibit", .str "blackhole", .str "anycast"])]),
  ("mtu", .dict [("type", .str "string"), ("pattern", .str "^[0-9]*$")]), ("table", .dict [("type", .str "string"), ("pattern", .str "^[0-9]*$")]),
  ("onlink", .dict [("type", .str "boolean")])])])]

def owPatch_pro_ip_rules : Val := .dict [("type", .str "array"), ("uniqueItems", .bool true), ("items", .dict [("type", .str "object"),
  ("properties", .dict [("in", .dict [("type", .str "string")]), ("out", .dict [("type", .str "string")]), ("src", .dict [("type", .str "string"),
  ("format", .str "cidr")]), ("dest", .dict [("type", .str "string"), ("format", .str "cidr")]), ("tos", .dict [("type", .str "integer")]), ("mark",
  .dict [("type", .str "string")]), ("lookup", .dict [("type", .str "string")]), ("action", .dict [("type", .str "string"), ("enum",
  .list [.str "prohibit", .str "unreachable", .str "blackhole", .str "throw"])]), ("goto", .dict [("type", .str "integer")]), ("invert",
  .dict [("type", .str "boolean")])])])]

def owPatch_pro_ntp : Val := .dict [("type", .str "object"), ("properties", .dict [("enabled", .dict [("type", .str "boolean")]), ("enable_server",
  .dict [("type", .str "boolean")]), ("server", .dict [("type", .str "array"), ("uniqueItems", .bool true), ("items", .dict [("type", .str "string"),
  ("format", .str "hostname")])])])]

def owPatch_pro_switch : Val := .dict [("type", .str "array"), ("uniqueItems", .bool true), ("items", .dict [("type", .str "object"), ("required",
  .list [.str "name", .str "reset", .str "enable_vlan", .str "vlan"]), ("properties", .dict [("name", .dict [("type", .str "string")]), ("reset",
  .dict [("type", .str "boolean")]), ("enable_vlan", .dict [("type", .str "boolean")]), ("vlan", .dict [("type", .str "array"), ("uniqueItems",
  .bool true), ("items", .dict [("type", .str "object"), ("required", .list [.str "device", .str "vlan", .str "ports"]), ("properties",
  .dict [("device", .dict [("type", .str "string")]), ("vlan", .dict [("type", .str "integer")]), ("ports", .dict [("type",
  .str "string")])])])])])])]

def owPatch_pro_led : Val := .dict [("type", .str "array"), ("uniqueItems", .bool true), ("items", .dict [("type", .str "object"), ("required",
  .list [.str "name", .str "sysfs", .str "trigger"]), ("properties", .dict [("name", .dict [("type", .str "string")]), ("default", .dict [("type",
  .str "boolean")]), ("dev", .dict [("type", .str "string")]), ("sysfs", .dict [("type", .str "string")]), ("trigger", .dict [("type",
  .str "string")]), ("delayoff", .dict [("type", .str "integer")]), ("delayon", .dict [("type", .str "integer")]), ("interval", .dict [("type",
  .str "integer")]), ("message", .dict [("type", .str "string")]), ("mode", .dict [("type", .str "string")])])])]

def owPatch_pro_wireguard_peers : Val := .dict [("type", .str "array"), ("uniqueItems", .bool true), ("items", .dict [("type", .str "object"),
  ("required", .list [.str "interface", .str "public_key", .str "allowed_ips"]), ("properties", .dict [("interface", .dict [("type", .str "string"),
  ("minLength", .int 2), ("maxLength", .int 15), ("pattern", .str "^[^\\s]*$")]), ("public_key", .dict [("type", .str "string"), ("maxLength",
  .int 44), ("minLength", .int 1), ("pattern", .str "^[^\\s]*$")]), ("allowed_ips", .dict [("type", .str "array"), ("uniqueItems", .bool true),
  ("items", .dict [("type", .str "string"), ("minLength", .int 1)])]), ("endpoint_host", .dict [("type", .str "string")]), ("endpoint_port",
  .dict [("type", .str "integer"), ("maximum", .int 65535), ("minimum", .int 1)]), ("preshared_key", .dict [("type", .str "string"), ("maxLength",
  .int 44), ("pattern", .str "^[^\\s]*$")]), ("persistent_keepalive", .dict [("type", .str "integer")]), ("route_allowed_ips", .dict [("type",
  .str "boolean")])])])]

def owPatch_pro_zerotier : Val := .dict [("type", .str "array"), ("uniqueItems", .bool true), ("items", .dict [("type", .str "object"), ("required",
  .list [.str "name", .str "networks"]), ("properties", .dict [("disabled", .dict [("type", .str "boolean")]), ("name", .dict [("type",
  .str "string"), ("minLength", .int 1)]), ("networks", .dict [("type", .str "array"), ("uniqueItems", .bool true), ("items", .dict [("type",
  .str "object"), ("allOf", .list [.dict [("required", .list [.str "id", .str "ifname"])]]), ("properties", .dict [("id", .dict [("type",
  .str "string"), ("maxLength", .int 16), ("minLength", .int 16)]), ("ifname", .dict [("type", .str "string"), ("minLength", .int 1), ("maxLength",
  .int 10)]), ("allow_managed", .dict [("type", .str "boolean")]), ("allow_global", .dict [("type", .str "boolean")]), ("allow_default",
  .dict [("type", .str "boolean")]), ("allow_dns", .dict [("type", .str "boolean")])])])]), ("secret", .dict [("type", .str "string")]),
  ("config_path", .dict [("type", .str "string")]), ("copy_config_path", .dict [("type", .str "string"), ("enum", .list [.str "0", .str "1"])]),
  ("port", .dict [("type", .str "integer"), ("minimum", .int 1), ("maximum", .int 65535)]), ("local_conf_path", .dict [("type", .str "string")])])])]

def owPatch_properties : VDict := [("general", owPatch_pro_general), ("interfaces", owPatch_pro_interfaces), ("routes", owPatch_pro_routes),
  ("ip_rules", owPatch_pro_ip_rules), ("ntp", owPatch_pro_ntp), ("switch", owPatch_pro_switch), ("led", owPatch_pro_led), ("wireguard_peers",
  owPatch_pro_wireguard_peers), ("zerotier", owPatch_pro_zerotier)]

/-- openwrt/schema.py l.21-1402 -/
def owPatch : VDict := [("definitions", .dict owPatch_definitions), ("properties", .dict owPatch_properties)]

def vpnSchema_def_tunnel : Val := .dict [("type", .str "object"), ("required", .list [.str "name", .str "mode", .str "proto", .str "dev"]),
  ("properties", .dict [("name", .dict [("type", .str "string"), ("minLength", .int 2), ("maxLength", .int 24), ("pattern",
  .str "^[0-9A-Za-z_-]*$")]), ("mode", .dict [("type", .str "string")]), ("proto", .dict [("type", .str "string")]), ("port", .dict [("type",
  .str "integer"), ("maximum", .int 65535), ("minimum", .int 1)]), ("dev_type", .dict [("type", .str "string"), ("enum", .list [.str "tun",
  .str "tap"])]), ("dev", .dict [("type", .str "string"), ("minLength", .int 2), ("maxLength", .int 15), ("pattern", .str "^[^\\s]*$")]), ("local",
  .dict [("type", .str "string")]), ("auth", .dict [("type", .str "string"), ("enum", .list [.str "DSA", .str "DSA-SHA", .str "DSA-SHA1",
  .str "DSA-SHA1-old", .str "MD4", .str "MD5", .str "MDC2", .str "RIPEMD160", .str "RSA-MD4", .str "RSA-MD5", .str "RSA-MDC2", .str "RSA-RIPEMD160",
  .str "RSA-SHA", .str "RSA-SHA1", .str "RSA-SHA1-2", .str "RSA-SHA224", .str "RSA-SHA256", .str "RSA-SHA384", .str "RSA-SHA512", .str "SHA",
  .str "SHA1", .str "SHA224", .str "SHA256", .str "SHA384", .str "SHA512", .str "ecdsa-with-SHA1", .str "whirlpool", .str "none"])]),
  ("data_ciphers", .dict [("type", .str "array"), ("minItems", .int 1), ("items", .dict [("type", .str "object"), ("required", .list [.str "cipher",
  .str "optional"]), ("properties", .dict [("cipher", .dict [("type", .str "string"), ("enum", .list [.str "", .str "AES-128-CBC",
  .str "AES-128-CFB", .str "AES-128-CFB1", .str "AES-128-CFB8", .str "AES-128-GCM", .str "AES-128-OFB", .str "AES-192-CBC", .str "AES-192-CFB",
  .str "AES-192-CFB1", .str "AES-192-CFB8", .str "AES-192-GCM", .str "AES-192-OFB", .str "AES-256-CBC", .str "AES-256-CFB", .str "AES-256-CFB1",
  .str "AES-256-CFB8", .str "AES-256-GCM", .str "AES-256-OFB", .str "ARIA-128-CBC", .str "ARIA-128-CFB", .str "ARIA-128-CFB1", .str "ARIA-128-CFB8",
  .str "ARIA-128-OFB", .str "ARIA-192-CBC", .str "ARIA-192-CFB", .str "ARIA-192-CFB1", .str "ARIA-192-CFB8", .str "ARIA-192-OFB",
  .str "ARIA-256-CBC", .str "ARIA-256-CFB", .str "ARIA-256-CFB1", .str "ARIA-256-CFB8", .str "ARIA-256-OFB", .str "CAMELLIA-128-CBC",
  .str "CAMELLIA-128-CFB", .str "CAMELLIA-128-CFB1", .str "CAMELLIA-128-CFB8", .str "CAMELLIA-128-OFB", .str "CAMELLIA-192-CBC",
  .str "CAMELLIA-192-CFB", .str "CAMELLIA-192-CFB1", .str "CAMELLIA-192-CFB8", .str "CAMELLIA-192-OFB", .str "CAMELLIA-256-CBC",
  .str "CAMELLIA-256-CFB", .str "CAMELLIA-256-CFB1", .str "CAMELLIA-256-CFB8", .str "CAMELLIA-256-OFB", .str "CHACHA20-POLY1305", .str "SEED-CBC",
  .str "SEED-CFB", .str "SEED-OFB", .str "SM4-CBC", .str "SM4-CFB", .str "SM4-OFB", .str "BF-CBC", .str "BF-CFB", .str "BF-OFB", .str "CAST5-CBC",
  .str "CAST5-CFB", .str "CAST5-OFB", .str "DES-CBC", .str "DES-CFB", .str "DES-CFB1", .str "DES-CFB8", .str "DES-EDE-CBC", .str "DES-EDE-CFB",
  .str "DES-EDE-OFB", .str "DES-EDE3-CBC", .str "DES-EDE3-CFB", .str "DES-EDE3-CFB1", .str "DES-EDE3-CFB8", .str "DES-EDE3-OFB", .str "DES-OFB",
  .str "DESX-CBC", .str "RC2-40-CBC", .str "RC2-64-CBC", .str "RC2-CBC", .str "RC2-CFB", .str "RC2-OFB", .str "none"])]), ("optional",
  .dict [("type", .str "boolean")])])])]), ("data_ciphers_fallback", .dict [("type", .str "string"), ("enum", .list [.str "AES-128-CBC",
  .str "AES-128-CFB", .str "AES-128-CFB1", .str "AES-128-CFB8", .str "AES-128-GCM", .str "AES-128-OFB", .str "AES-192-CBC", .str "AES-192-CFB",
  .str "AES-192-CFB1", .str "AES-192-CFB8", .str "AES-192-GCM", .str "AES-192-OFB", .str "AES-256-CBC", .str "AES-256-CFB", .str "AES-256-CFB1",
  .str "AES-256-CFB8", .str "AES-256-GCM", .str "AES-256-OFB", .str "ARIA-128-CBC", .str "ARIA-128-CFB", .str "ARIA-128-CFB1", .str "ARIA-128-CFB8",
  .str "ARIA-128-OFB", .str "ARIA-192-CBC", .str "ARIA-192-CFB", .str "ARIA-192-CFB1", .str "ARIA-192-CFB8", .str "ARIA-192-OFB",
  .str "ARIA-256-CBC", .str "ARIA-256-CFB", .str "ARIA-256-CFB1", .str "ARIA-256-CFB8", .str "ARIA-256-OFB", .str "CAMELLIA-128-CBC",
  .str "CAMELLIA-128-CFB", .str "CAMELLIA-128-CFB1", .str "CAMELLIA-128-CFB8", .str "CAMELLIA-128-OFB", .str "CAMELLIA-192-CBC",
  .str "CAMELLIA-192-CFB", .str "CAMELLIA-192-CFB1", .str "CAMELLIA-192-CFB8", .str "CAMELLIA-192-OFB", .str "CAMELLIA-256-CBC",
  .str "CAMELLIA-256-CFB", .str "CAMELLIA-256-CFB1", .str "CAMELLIA-256-CFB8", .str "CAMELLIA-256-OFB", .str "CHACHA20-POLY1305", .str "SEED-CBC",
  .str "SEED-CFB", .str "SEED-OFB", .str "SM4-CBC", .str "SM4-CFB", .str "SM4-OFB", .str "BF-CBC", .str "BF-CFB", .str "BF-OFB", .str "CAST5-CBC",
  .str "CAST5-CFB", .str "CAST5-OFB", .str "DES-CBC", .str "DES-CFB", .str "DES-CFB1", .str "DES-CFB8", .str "DES-EDE-CBC", .str "DES-EDE-CFB",
  .str "DES-EDE-OFB", .str "DES-EDE3-CBC", .str "DES-EDE3-CFB", .str "DES-EDE3-CFB1", .str "DES-EDE3-CFB8", .str "DES-EDE3-OFB", .str "DES-OFB",
  .str "DESX-CBC", .str "RC2-40-CBC", .str "RC2-64-CBC", .str "RC2-CBC", .str "RC2-CFB", .str "RC2-OFB", .str "none"])]), ("cipher", .dict [("type",
  .str "string"), ("enum", .list [.str "AES-128-CBC", .str "AES-128-CFB", .str "AES-128-CFB1", .str "AES-128-CFB8", .str "AES-128-GCM",
  .str "AES-128-OFB", .str "AES-192-CBC", .str "AES-192-CFB", .str "AES-192-CFB1", .str "AES-192-CFB8", .str "AES-192-GCM", .str "AES-192-OFB",
  .str "AES-256-CBC", .str "AES-256-CFB", .str "AES-256-CFB1", .str "AES-256-CFB8", .str "AES-256-GCM", .str "AES-256-OFB", .str "ARIA-128-CBC",
  .str "ARIA-128-CFB", .str "ARIA-128-CFB1", .str "ARIA-128-CFB8", .str "ARIA-128-OFB", .str "ARIA-192-CBC", .str "ARIA-192-CFB",
  .str "ARIA-192-CFB1", .str "ARIA-192-CFB8", .str "ARIA-192-OFB", .str "ARIA-256-CBC", .str "ARIA-256-CFB", .str "ARIA-256-CFB1",
  .str "ARIA-256-CFB8", .str "ARIA-256-OFB", .str "CAMELLIA-128-CBC", .str "CAMELLIA-128-CFB", .str "CAMELLIA-128-CFB1", .str "CAMELLIA-128-CFB8",
  .str "CAMELLIA-128-OFB", .str "CAMELLIA-192-CBC", .str "CAMELLIA-192-CFB", .str "CAMELLIA-192-CFB1", .str "CAMELLIA-192-CFB8",
  .str "CAMELLIA-192-OFB", .str "CAMELLIA-256-CBC", .str "CAMELLIA-256-CFB", .str "CAMELLIA-256-CFB1", .str "CAMELLIA-256-CFB8",
  .str "CAMELLIA-256-OFB", .str "CHACHA20-POLY1305", .str "SEED-CBC", .str "SEED-CFB", .str "SEED-OFB", .str "SM4-CBC", .str "SM4-CFB",
  .str "SM4-OFB", .str "BF-CBC", .str "BF-CFB", .str "BF-OFB", .str "CAST5-CBC", .str "CAST5-CFB", .str "CAST5-OFB", .str "DES-CBC", .str "DES-CFB",
  .str "DES-CFB1", .str "DES-CFB8", .str "DES-EDE-CBC", .str "DES-EDE-CFB", .str "DES-EDE-OFB", .str "DES-EDE3-CBC", .str "DES-EDE3-CFB",
  .str "DES-EDE3-CFB1", .str "DES-EDE3-CFB8", .str "DES-EDE3-OFB", .str "DES-OFB", .str "DESX-CBC", .str "RC2-40-CBC", .str "RC2-64-CBC",
  .str "RC2-CBC", .str "RC2-CFB", .str "RC2-OFB", .str "none"])]), ("engine", .dict [("type", .str "string"), ("enum", .list [.str "", .str "bsd",
  .str "rsax", .str "dynamic"])]), ("ca", .dict [("type", .str "string"), ("pattern", .str "^(\\S*)$")]), ("cert", .dict [("type", .str "string"),
  ("pattern", .str "^(\\S*)$")]), ("key", .dict [("type", .str "string"), ("pattern", .str "^(\\S*)$")]), ("pkcs12", .dict [("type", .str "string"),
  ("pattern", .str "^(\\S*)$")]), ("tls_auth", .dict [("type", .str "string")]), ("ns_cert_type", .dict [("type", .str "string")]), ("mtu_disc",
  .dict [("type", .str "string"), ("enum", .list [.str "no", .str "maybe", .str "yes"])]), ("mtu_test", .dict [("type", .str "boolean")]),
  ("fragment", .dict [("type", .str "integer"), ("minimum", .int 0)]), ("mssfix", .dict [("type", .str "integer"), ("minimum", .int 0)]),
  ("keepalive", .dict [("type", .str "string"), ("pattern", .str "^(([0-9]*) ([0-9]*)|)$")]), ("persist_tun", .dict [("type", .str "boolean")]),
  ("persist_key", .dict [("type", .str "boolean")]), ("tun_ipv6", .dict [("type", .str "boolean")]), ("up", .dict [("type", .str "string"),
  ("pattern", .str "^(\\S*)$")]), ("up_delay", .dict [("type", .str "integer"), ("minimum", .int 0)]), ("down", .dict [("type", .str "string"),
  ("pattern", .str "^(\\S*)$")]), ("script_security", .dict [("type", .str "integer"), ("enum", .list [.int 0, .int 1, .int 2, .int 3])]), ("user",
  .dict [("type", .str "string")]), ("group", .dict [("type", .str "string")]), ("mute", .dict [("type", .str "integer"), ("minimum", .int 0)]),
  ("status", .dict [("type", .str "string"), ("pattern", .str "^((\\S*) ([0-9]*)|(\\S*)|)$")]), ("status_version", .dict [("type", .str "integer"),
  ("enum", .list [.int 1, .int 2, .int 3])]), ("mute_replay_warnings", .dict [("type", .str "boolean")]), ("secret", .dict [("type", .str "string"),
  ("pattern", .str "^(\\S*)$")]), ("reneg_sec", .dict [("type", .str "integer")]), ("tls_timeout", .dict [("type", .str "integer")]), ("tls_cipher",
  .dict [("type", .str "string")]), ("remote_cert_tls", .dict [("type", .str "string")]), ("float", .dict [("type", .str "boolean")]),
  ("auth_nocache", .dict [("type", .str "boolean")]), ("fast_io", .dict [("type", .str "boolean")]), ("log", .dict [("type", .str "string"),
  ("pattern", .str "^(\\S*)$")]), ("verb", .dict [("type", .str "integer"), ("enum", .list [.int 0, .int 1, .int 2, .int 3, .int 4, .int 5, .int 6,
  .int 7, .int 8, .int 9, .int 10, .int 11])]), ("allow_compression", .dict [("type", .str "string"), ("enum", .list [.str "", .str "asym",
  .str "no", .str "yes"])]), ("compress", .dict [("type", .str "string"), ("enum", .list [.str "", .str "lzo", .str "lz4", .str "lz4-v2",
  .str "stub", .str "stub-v2", .str "migrate"])]), ("comp_lzo", .dict [("type", .str "string"), ("enum", .list [.str "", .str "yes", .str "no",
  .str "adaptive"])])])]

def vpnSchema_def_client : Val := .dict [("allOf", .list [.dict [("$ref", .str "#/definitions/tunnel")], .dict [("type", .str "object"), ("required",
  .list [.str "remote"]), ("properties", .dict [("mode", .dict [("enum", .list [.str "p2p"])]), ("proto", .dict [("enum", .list [.str "udp",
  .str "tcp-client"])]), ("remote", .dict [("type", .str "array"), ("minItems", .int 1), ("items", .dict [("type", .str "object"),
  ("additionalProperties", .bool false), ("required", .list [.str "host", .str "port"]), ("properties", .dict [("host", .dict [("type",
  .str "string"), ("maxLength", .int 63), ("minLength", .int 1), ("format", .str "hostname")]), ("port", .dict [("type", .str "integer"), ("maximum",
  .int 65535), ("minimum", .int 1)]), ("proto", .dict [("type", .str "string"), ("enum", .list [.str "auto", .str "udp", .str "udp4", .str "udp6",
  .str "tcp", .str "tcp4", .str "tcp6"])])])])]), ("remote_random", .dict [("type", .str "boolean")]), ("port", .dict [("type", .str "integer")]),
  ("nobind", .dict [("type", .str "boolean")]), ("resolv_retry", .dict [("type", .str "string"), ("pattern", .str "^(infinite)|([0-9])$")]),
  ("tls_client", .dict [("type", .str "boolean")]), ("pull", .dict [("type", .str "boolean")]), ("ns_cert_type", .dict [("enum", .list [.str "",
  .str "server"])]), ("auth_user_pass", .dict [("type", .str "string"), ("pattern", .str "^(\\S*)$")]), ("auth_retry", .dict [("type",
  .str "string"), ("enum", .list [.str "none", .str "nointeract", .str "interact"])]), ("remote_cert_tls", .dict [("enum", .list [.str "",
  .str "server"])])])]])]

def vpnSchema_def_server : Val := .dict [("type", .str "object"), ("properties", .dict [("mode", .dict [("enum", .list [.str "server"])]), ("proto",
  .dict [("enum", .list [.str "udp", .str "tcp-server"])]), ("topology", .dict [("enum", .list [.str "net30", .str "p2p", .str "subnet"]), ("type",
  .str "string")]), ("tls_server", .dict [("type", .str "boolean")]), ("dh", .dict [("type", .str "string")]), ("crl_verify", .dict [("type",
  .str "string"), ("pattern", .str "^(\\S*)$")]), ("ns_cert_type", .dict [("enum", .list [.str "", .str "client"])]), ("duplicate_cn",
  .dict [("type", .str "boolean")]), ("client_to_client", .dict [("type", .str "boolean")]), ("client_cert_not_required", .dict [("type",
  .str "boolean")]), ("username_as_common_name", .dict [("type", .str "boolean")]), ("auth_user_pass_verify", .dict [("type", .str "string"),
  ("pattern", .str "^((\\S*) (\\S*)|)$")]), ("remote_cert_tls", .dict [("enum", .list [.str "", .str "client"])])])]

def vpnSchema_def_server_manual : Val := .dict [("allOf", .list [.dict [("$ref", .str "#/definitions/tunnel")], .dict [("$ref",
  .str "#/definitions/server")], .dict [("not", .dict [("required", .list [.str "server"])])], .dict [("not", .dict [("required",
  .list [.str "server_bridge"])])]])]

def vpnSchema_def_server_bridged : Val := .dict [("allOf", .list [.dict [("type", .str "object"), ("required", .list [.str "server_bridge"]),
  ("properties", .dict [("server_bridge", .dict [("type", .str "string")])])], .dict [("$ref", .str "#/definitions/tunnel")], .dict [("$ref",
  .str "#/definitions/server")]])]

def vpnSchema_def_server_routed : Val := .dict [("allOf", .list [.dict [("type", .str "object"), ("required", .list [.str "server"]), ("properties",
  .dict [("server", .dict [("type", .str "string"), ("minLength", .int 15)])])], .dict [("$ref", .str "#/definitions/tunnel")], .dict [("$ref",
  .str "#/definitions/server")]])]

def vpnSchema_definitions : VDict := [("tunnel", vpnSchema_def_tunnel), ("client", vpnSchema_def_client), ("server", vpnSchema_def_server),
  ("server_manual", vpnSchema_def_server_manual), ("server_bridged", vpnSchema_def_server_bridged), ("server_routed", vpnSchema_def_server_routed)]

def vpnSchema_pro_openvpn : Val := .dict [("type", .str "array"), ("uniqueItems", .bool true), ("items", .dict [("type", .str "object"), ("oneOf",
  .list [.dict [("$ref", .str "#/definitions/client")], .dict [("$ref", .str "#/definitions/server_manual")], .dict [("$ref",
  .str "#/definitions/server_bridged")], .dict [("$ref", .str "#/definitions/server_routed")]])])]

def vpnSchema_properties : VDict := [("openvpn", vpnSchema_pro_openvpn)]

/-- openvpn/schema.py l.104-961 -/
def vpnSchema : VDict := [("type", .str "object"), ("definitions", .dict vpnSchema_definitions), ("properties", .dict vpnSchema_properties)]

def owPatch2_def_tunnel : Val := .dict [("properties", .dict [("disabled", .dict [("type", .str "boolean")])])]

def owPatch2_definitions : VDict := [("tunnel", owPatch2_def_tunnel)]

/-- openwrt/schema.py l.1409-1424 -/
def owPatch2 : VDict := [("definitions", .dict owPatch2_definitions)]

def owSchema_def_base_address : Val := .dict [("type", .str "object"), ("required", .list [.str "proto", .str "family"]), ("properties",
  .dict [("proto", .dict [("type", .str "string")]), ("family", .dict [("type", .str "string")])])]

def owSchema_def_static_address : Val := .dict [("required", .list [.str "address", .str "mask"]), ("properties", .dict [("address", .dict [("type",
  .str "string")]), ("mask", .dict [("type", .str "integer")])])]

def owSchema_def_ipv4_address : Val := .dict [("allOf", .list [.dict [("$ref", .str "#/definitions/base_address")], .dict [("$ref",
  .str "#/definitions/static_address")], .dict [("type", .str "object"), ("properties", .dict [("proto", .dict [("enum", .list [.str "static"])]),
  ("family", .dict [("enum", .list [.str "ipv4"])]), ("address", .dict [("minLength", .int 7), ("maxLength", .int 15), ("format", .str "ipv4")]),
  ("mask", .dict [("minimum", .int 8)]), ("gateway", .dict [("type", .str "string"), ("maxLength", .int 16)])])]])]

def owSchema_def_ipv6_address : Val := .dict [("allOf", .list [.dict [("$ref", .str "#/definitions/base_address")], .dict [("$ref",
  .str "#/definitions/static_address")], .dict [("type", .str "object"), ("required", .list [.str "address", .str "mask"]), ("properties",
  .dict [("proto", .dict [("enum", .list [.str "static"])]), ("family", .dict [("enum", .list [.str "ipv6"])]), ("address", .dict [("minLength",
  .int 3), ("maxLength", .int 45), ("format", .str "ipv6")]), ("mask", .dict [("minimum", .int 4)]), ("gateway", .dict [("type", .str "string"),
  ("maxLength", .int 45)])])]])]

def owSchema_def_dhcp_address : Val := .dict [("allOf", .list [.dict [("$ref", .str "#/definitions/base_address")], .dict [("type", .str "object"),
  ("properties", .dict [("proto", .dict [("enum", .list [.str "dhcp"])]), ("family", .dict [("enum", .list [.str "ipv4", .str "ipv6"])])])]])]

def owSchema_def_base_interface_settings : Val := .dict [("type", .str "object"), ("required", .list [.str "name", .str "type"]), ("properties",
  .dict [("name", .dict [("type", .str "string"), ("minLength", .int 2), ("maxLength", .int 15), ("pattern", .str "^[^\\s]*$")]), ("mtu",
  .dict [("type", .str "integer"), ("minimum", .int 68)]), ("disabled", .dict [("type", .str "boolean")]), ("network", .dict [("type",
  .str "string"), ("maxLength", .int 15), ("pattern", .str "^[a-zA-z0-9_\\.\\-]*$")])])]

def owSchema_def_interface_settings : Val := .dict [("type", .str "object"), ("properties", .dict [("mac", .dict [("type", .str "string"),
  ("pattern", .str "^(([0-9A-Fa-f]{2}[:-]){5}([0-9A-Fa-f]{2})|)$"), ("maxLength", .int 17)]), ("autostart", .dict [("type", .str "boolean")]),
  ("addresses", .dict [("type", .str "array"), ("uniqueItems", .bool true), ("items", .dict [("oneOf", .list [.dict [("$ref",
  .str "#/definitions/dhcp_address")], .dict [("$ref", .str "#/definitions/ipv4_address")], .dict [("$ref",
  .str "#/definitions/ipv6_address")]])])])])]

def owSchema_def_network_interface : Val := .dict [("allOf", .list [.dict [("properties", .dict [("type", .dict [("type", .str "string"), ("enum",
  .list [.str "ethernet", .str "virtual", .str "loopback", .str "other"])])])], .dict [("$ref", .str "#/definitions/base_interface_settings")],
  .dict [("$ref", .str "#/definitions/interface_settings")]])]

def owSchema_def_wireless_interface : Val := .dict [("allOf", .list [.dict [("properties", .dict [("type", .dict [("type", .str "string"), ("enum",
  .list [.str "wireless"])]), ("wireless", .dict [("type", .str "object"), ("oneOf", .list [.dict [("$ref",
  .str "#/definitions/ap_wireless_settings")], .dict [("$ref", .str "#/definitions/sta_wireless_settings")], .dict [("$ref",
  .str "#/definitions/adhoc_wireless_settings")], .dict [("$ref", .str "#/definitions/monitor_wireless_settings")], .dict [("$ref",
  .str "#/definitions/mesh_wireless_settings")]])])])], .dict [("$ref", .str "#/definitions/base_interface_settings")], .dict [("$ref",
  .str "#/definitions/interface_settings")]]), ("properties", .dict [("wireless", .dict [("properties", .dict [("network", .dict [("type",
  .str "array"), ("uniqueItems", .bool true), ("items", .dict [("type", .str "string"), ("$ref",
  .str "#/definitions/base_interface_settings/properties/network")])])])])])]

def owSchema_def_bridge_interface : Val := .dict [("required", .list [.str "bridge_members"]), ("allOf", .list [.dict [("properties", .dict [("type",
  .dict [("type", .str "string"), ("enum", .list [.str "bridge"])]), ("stp", .dict [("type", .str "boolean")]), ("bridge_members", .dict [("type",
  .str "array"), ("uniqueItems", .bool true), ("items", .dict [("type", .str "string"), ("$ref",
  .str "#/definitions/base_interface_settings/properties/name")])])])], .dict [("$ref", .str "#/definitions/base_interface_settings")],
  .dict [("$ref", .str "#/definitions/interface_settings")], .dict [("properties", .dict [("igmp_snooping", .dict [("type", .str "boolean")]),
  ("multicast_querier", .dict [("type", .str "boolean")]), ("query_interval", .dict [("type", .str "integer")]), ("query_response_interval",
  .dict [("type", .str "integer")]), ("last_member_interval", .dict [("type", .str "integer")]), ("hash_max", .dict [("type", .str "integer")]),
  ("robustness", .dict [("type", .str "integer")]), ("forward_delay", .dict [("type", .str "integer"), ("minimum", .int 2), ("maximum", .int 30)]),
  ("hello_time", .dict [("type", .str "integer"), ("minimum", .int 1), ("maximum", .int 10)]), ("priority", .dict [("type", .str "integer"),
  ("minimum", .int 0), ("maximum", .int 65535)]), ("ageing_time", .dict [("type", .str "integer"), ("minimum", .int 10), ("maximum", .int 1000000)]),
  ("max_age", .dict [("type", .str "integer"), ("minimum", .int 0), ("maximum", .int 40)]), ("vlan_filtering", .dict [("type", .str "array"),
  ("items", .dict [("type", .str "object"), ("properties", .dict [("vlan", .dict [("type", .str "integer"), ("minimum", .int 0)]), ("ports",
  .dict [("type", .str "array"), ("items", .dict [("type", .str "object"), ("required", .list [.str "ifname", .str "tagging"]), ("properties",
  .dict [("ifname", .dict [("type", .str "string")]), ("tagging", .dict [("type", .str "string"), ("enum", .list [.str "t", .str "u"])]),
  ("primary_vid", .dict [("type", .str "boolean")])])])])])])])])]])]

def owSchema_def_base_wireless_settings : Val := .dict [("type", .str "object"), ("required", .list [.str "radio", .str "mode"]), ("properties",
  .dict [("mode", .dict [("type", .str "string")]), ("radio", .dict [("type", .str "string"), ("minLength", .int 2)]), ("ack_distance",
  .dict [("type", .str "integer"), ("minimum", .int 0)]), ("rts_threshold", .dict [("type", .str "integer"), ("minimum", .int 0), ("maximum",
  .int 2346)]), ("frag_threshold", .dict [("type", .str "integer"), ("minimum", .int 0), ("maximum", .int 2346)])])]

def owSchema_def_ssid_wireless_property : Val := .dict [("required", .list [.str "ssid"]), ("properties", .dict [("ssid", .dict [("type",
  .str "string"), ("maxLength", .int 32)])])]

def owSchema_def_hidden_wireless_property : Val := .dict [("properties", .dict [("hidden", .dict [("type", .str "boolean")])])]

def owSchema_def_bssid_wireless_property : Val := .dict [("properties", .dict [("bssid", .dict [("type", .str "string"), ("pattern",
  .str "^(([0-9A-Fa-f]{2}[:-]){5}([0-9A-Fa-f]{2})|)$"), ("maxLength", .int 17)])])]

def owSchema_def_wds_wireless_property : Val := .dict [("properties", .dict [("wds", .dict [("type", .str "boolean")])])]

def owSchema_def_mesh_id_wireless_property : Val := .dict [("required", .list [.str "mesh_id"]), ("properties", .dict [("mesh_id", .dict [("type",
  .str "string"), ("pattern", .str "^[^\\s]*$")])])]

def owSchema_def_encryption_wireless_property_ap : Val := .dict [("properties", .dict [("encryption", .dict [("type", .str "object"), ("required",
  .list [.str "protocol"]), ("oneOf", .list [.dict [("$ref", .str "#/definitions/encryption_none")], .dict [("$ref",
  .str "#/definitions/encryption_owe")], .dict [("$ref", .str "#/definitions/encryption_wpa3_personal")], .dict [("$ref",
  .str "#/definitions/encryption_wpa3_enterprise_ap")], .dict [("$ref", .str "#/definitions/encryption_wpa3_personal_mixed")], .dict [("$ref",
  .str "#/definitions/encryption_wpa3_enterprise_ap_mixed")], .dict [("$ref", .str "#/definitions/encryption_wpa_personal")], .dict [("$ref",
  .str "#/definitions/encryption_wpa_enterprise_ap")], .dict [("$ref", .str "#/definitions/encryption_wps")], .dict [("$ref",
  .str "#/definitions/encryption_wep")]])])])]

def owSchema_def_encryption_wireless_property_sta : Val := .dict [("properties", .dict [("encryption", .dict [("type", .str "object"), ("required",
  .list [.str "protocol"]), ("oneOf", .list [.dict [("$ref", .str "#/definitions/encryption_none")], .dict [("$ref",
  .str "#/definitions/encryption_owe")], .dict [("$ref", .str "#/definitions/encryption_wpa3_personal")], .dict [("$ref",
  .str "#/definitions/encryption_wpa3_enterprise_sta")], .dict [("$ref", .str "#/definitions/encryption_wpa3_personal_mixed")], .dict [("$ref",
  .str "#/definitions/encryption_wpa3_enterprise_sta_mixed")], .dict [("$ref", .str "#/definitions/encryption_wpa_personal")], .dict [("$ref",
  .str "#/definitions/encryption_wpa_enterprise_sta")], .dict [("$ref", .str "#/definitions/encryption_wep")]])])])]

def owSchema_def_encryption_wireless_property_mesh : Val := .dict [("properties", .dict [("encryption", .dict [("type", .str "object"), ("required",
  .list [.str "protocol"]), ("oneOf", .list [.dict [("$ref", .str "#/definitions/encryption_none")], .dict [("$ref",
  .str "#/definitions/encryption_wpa3_personal")], .dict [("$ref", .str "#/definitions/encryption_wpa_personal")], .dict [("$ref",
  .str "#/definitions/encryption_wep")]])])])]

def owSchema_def_encryption_none : Val := .dict [("properties", .dict [("protocol", .dict [("type", .str "string"), ("enum", .list [.str "none"])])])]

def owSchema_def_encryption_base_settings : Val := .dict [("required", .list [.str "key"]), ("properties", .dict [("protocol", .dict [("type",
  .str "string")]), ("key", .dict [("type", .str "string")]), ("disabled", .dict [("type", .str "boolean")])])]

def owSchema_def_encryption_cipher_property : Val := .dict [("properties", .dict [("cipher", .dict [("type", .str "string"), ("enum",
  .list [.str "auto", .str "ccmp", .str "tkip", .str "tkip+ccmp"])])])]

def owSchema_def_encryption_cipher_ccmp_required : Val := .dict [("required", .list [.str "cipher"]), ("properties", .dict [("cipher",
  .dict [("type", .str "string"), ("enum", .list [.str "ccmp"])])])]

def owSchema_def_encryption_mfp_property : Val := .dict [("properties", .dict [("ieee80211w", .dict [("type", .str "string"), ("enum",
  .list [.str "0", .str "1", .str "2"])])])]

def owSchema_def_encryption_mfp_property_required : Val := .dict [("required", .list [.str "ieee80211w"]), ("properties", .dict [("ieee80211w",
  .dict [("type", .str "string"), ("enum", .list [.str "2"])])])]

def owSchema_def_encryption_mfp_property_optional : Val := .dict [("required", .list [.str "ieee80211w"]), ("properties", .dict [("ieee80211w",
  .dict [("type", .str "string"), ("enum", .list [.str "1", .str "2"])])])]

def owSchema_def_encryption_owe : Val := .dict [("allOf", .list [.dict [("$ref", .str "#/definitions/encryption_mfp_property")],
  .dict [("properties", .dict [("protocol", .dict [("type", .str "string"), ("enum", .list [.str "owe"])])])]])]

def owSchema_def_encryption_wpa3_personal : Val := .dict [("allOf", .list [.dict [("$ref", .str "#/definitions/encryption_base_settings")],
  .dict [("$ref", .str "#/definitions/encryption_cipher_ccmp_required")], .dict [("$ref", .str "#/definitions/encryption_mfp_property_required")],
  .dict [("properties", .dict [("protocol", .dict [("enum", .list [.str "wpa3_personal"])]), ("key", .dict [("minLength", .int 8)])])]])]

def owSchema_def_encryption_wpa3_personal_mixed : Val := .dict [("allOf", .list [.dict [("$ref", .str "#/definitions/encryption_base_settings")],
  .dict [("$ref", .str "#/definitions/encryption_cipher_ccmp_required")], .dict [("$ref", .str "#/definitions/encryption_mfp_property_optional")],
  .dict [("properties", .dict [("protocol", .dict [("enum", .list [.str "wpa2_personal_mixed"])]), ("key", .dict [("minLength", .int 8)])])]])]

def owSchema_def_encryption_wpa_personal : Val := .dict [("allOf", .list [.dict [("$ref", .str "#/definitions/encryption_base_settings")],
  .dict [("$ref", .str "#/definitions/encryption_cipher_property")], .dict [("$ref", .str "#/definitions/encryption_mfp_property")],
  .dict [("properties", .dict [("protocol", .dict [("enum", .list [.str "wpa2_personal", .str "wpa_personal_mixed", .str "wpa_personal"])]), ("key",
  .dict [("minLength", .int 8)])])]])]

def owSchema_def_encryption_wpa_enterprise_ap_base_settings : Val := .dict [("required", .list [.str "server"]), ("properties", .dict [("server",
  .dict [("type", .str "string"), ("minLength", .int 3)]), ("key", .dict [("minLength", .int 4)]), ("port", .dict [("type", .str "integer")]),
  ("acct_server", .dict [("type", .str "string")]), ("acct_server_port", .dict [("type", .str "integer")]), ("acct_secret", .dict [("type",
  .str "string")]), ("acct_interval", .dict [("type", .str "integer")]), ("dae_client", .dict [("type", .str "string")]), ("dae_port",
  .dict [("type", .str "integer")]), ("dae_secret", .dict [("type", .str "string")]), ("nasid", .dict [("type", .str "string")])])]

def owSchema_def_encryption_wpa_enterprise_sta_base_settings : Val := .dict [("properties", .dict [("eap_type", .dict [("type", .str "string"),
  ("enum", .list [.str "tls", .str "ttls", .str "peap"])]), ("auth", .dict [("type", .str "string"), ("enum", .list [.str "PAP", .str "CHAP",
  .str "MSCHAP", .str "MSCHAPV2", .str "EAP-GTC", .str "EAP-MD5", .str "EAP-MSCHAPV2", .str "EAP-TLS"])]), ("identity", .dict [("type",
  .str "string")]), ("anonymous_identity", .dict [("type", .str "string")]), ("password", .dict [("type", .str "string")]), ("ca_cert",
  .dict [("type", .str "string")]), ("client_cert", .dict [("type", .str "string")]), ("priv_key", .dict [("type", .str "string")]), ("priv_key_pwd",
  .dict [("type", .str "string")]), ("ca_cert_usesystem", .dict [("type", .str "boolean")]), ("subject_match", .dict [("type", .str "string")]),
  ("altsubject_match", .dict [("type", .str "array"), ("items", .dict [("type", .str "string")])]), ("domain_match", .dict [("type", .str "array"),
  ("items", .dict [("type", .str "string")])]), ("domain_suffix_match", .dict [("type", .str "array"), ("items", .dict [("type", .str "string")])])])]

def owSchema_def_encryption_wpa3_enterprise_base_settings : Val := .dict [("properties", .dict [("protocol", .dict [("type", .str "string"), ("enum",
  .list [.str "wpa3_enterprise"])])])]

def owSchema_def_encryption_wpa3_enterprise_mixed_base_settings : Val := .dict [("properties", .dict [("protocol", .dict [("type", .str "string"),
  ("enum", .list [.str "wpa2_enterprise_mixed"])])])]

def owSchema_def_encryption_wpa3_enterprise_ap : Val := .dict [("allOf", .list [.dict [("$ref", .str "#/definitions/encryption_base_settings")],
  .dict [("$ref", .str "#/definitions/encryption_cipher_ccmp_required")], .dict [("$ref", .str "#/definitions/encryption_mfp_property_required")],
  .dict [("$ref", .str "#/definitions/encryption_wpa3_enterprise_base_settings")], .dict [("$ref",
  .str "#/definitions/encryption_wpa_enterprise_ap_base_settings")]])]

def owSchema_def_encryption_wpa3_enterprise_ap_mixed : Val := .dict [("allOf", .list [.dict [("$ref",
  .str "#/definitions/encryption_base_settings")], .dict [("$ref", .str "#/definitions/encryption_cipher_ccmp_required")], .dict [("$ref",
  .str "#/definitions/encryption_mfp_property_optional")], .dict [("$ref", .str "#/definitions/encryption_wpa3_enterprise_mixed_base_settings")],
  .dict [("$ref", .str "#/definitions/encryption_wpa_enterprise_ap_base_settings")]])]

def owSchema_def_encryption_wpa3_enterprise_sta : Val := .dict [("allOf", .list [.dict [("$ref",
  .str "#/definitions/encryption_cipher_ccmp_required")], .dict [("$ref", .str "#/definitions/encryption_mfp_property_required")], .dict [("$ref",
  .str "#/definitions/encryption_wpa3_enterprise_base_settings")], .dict [("$ref",
  .str "#/definitions/encryption_wpa_enterprise_sta_base_settings")]])]

def owSchema_def_encryption_wpa3_enterprise_sta_mixed : Val := .dict [("allOf", .list [.dict [("$ref",
  .str "#/definitions/encryption_cipher_ccmp_required")], .dict [("$ref", .str "#/definitions/encryption_mfp_property_optional")], .dict [("$ref",
  .str "#/definitions/encryption_wpa3_enterprise_mixed_base_settings")], .dict [("$ref",
  .str "#/definitions/encryption_wpa_enterprise_sta_base_settings")]])]

def owSchema_def_encryption_wpa_enterprise_base_settings : Val := .dict [("properties", .dict [("protocol", .dict [("type", .str "string"), ("enum",
  .list [.str "wpa2_enterprise", .str "wpa_enterprise_mixed", .str "wpa_enterprise"])])])]

def owSchema_def_encryption_wpa_enterprise_ap : Val := .dict [("allOf", .list [.dict [("$ref", .str "#/definitions/encryption_base_settings")],
  .dict [("$ref", .str "#/definitions/encryption_cipher_property")], .dict [("$ref", .str "#/definitions/encryption_mfp_property")], .dict [("$ref",
  .str "#/definitions/encryption_wpa_enterprise_base_settings")], .dict [("$ref", .str "#/definitions/encryption_wpa_enterprise_ap_base_settings")]])]

def owSchema_def_encryption_wpa_enterprise_sta : Val := .dict [("allOf", .list [.dict [("$ref", .str "#/definitions/encryption_cipher_property")],
  .dict [("$ref", .str "#/definitions/encryption_mfp_property")], .dict [("$ref", .str "#/definitions/encryption_wpa_enterprise_base_settings")],
  .dict [("$ref", .str "#/definitions/encryption_wpa_enterprise_sta_base_settings")]])]

def owSchema_def_encryption_wep : Val := .dict [("allOf", .list [.dict [("$ref", .str "#/definitions/encryption_base_settings")],
  .dict [("properties", .dict [("protocol", .dict [("enum", .list [.str "wep_open", .str "wep_shared"])]), ("key", .dict [("minLength", .int 5),
  ("maxLength", .int 26)])])]])]

def owSchema_def_encryption_wps : Val := .dict [("properties", .dict [("protocol", .dict [("type", .str "string"), ("enum", .list [.str "wps"])]),
  ("wps_pushbutton", .dict [("type", .str "boolean")]), ("wps_label", .dict [("type", .str "boolean")]), ("wps_pin", .dict [("type",
  .str "string")])])]

def owSchema_def_ap_wireless_settings : Val := .dict [("allOf", .list [.dict [("properties", .dict [("mode", .dict [("enum",
  .list [.str "access_point"])])])], .dict [("$ref", .str "#/definitions/base_wireless_settings")], .dict [("$ref",
  .str "#/definitions/ssid_wireless_property")], .dict [("$ref", .str "#/definitions/hidden_wireless_property")], .dict [("$ref",
  .str "#/definitions/wds_wireless_property")], .dict [("$ref", .str "#/definitions/encryption_wireless_property_ap")], .dict [("properties",
  .dict [("wmm", .dict [("type", .str "boolean")]), ("isolate", .dict [("type", .str "boolean")]), ("ieee80211r", .dict [("type", .str "boolean")]),
  ("reassociation_deadline", .dict [("type", .str "integer"), ("minimum", .int 1000), ("maximum", .int 65535)]), ("ft_psk_generate_local",
  .dict [("type", .str "boolean")]), ("ft_over_ds", .dict [("type", .str "boolean")]), ("rsn_preauth", .dict [("type", .str "boolean")]),
  ("macfilter", .dict [("type", .str "string"), ("enum", .list [.str "disable", .str "allow", .str "deny"])]), ("maclist", .dict [("type",
  .str "array"), ("items", .dict [("type", .str "string"), ("pattern", .str "^([0-9A-Fa-f]{2}[:-]){5}([0-9A-Fa-f]{2})$"), ("minLength", .int 17),
  ("maxLength", .int 17)])])])]])]

def owSchema_def_sta_wireless_settings : Val := .dict [("allOf", .list [.dict [("properties", .dict [("mode", .dict [("enum",
  .list [.str "station"])])])], .dict [("$ref", .str "#/definitions/base_wireless_settings")], .dict [("$ref",
  .str "#/definitions/ssid_wireless_property")], .dict [("$ref", .str "#/definitions/bssid_wireless_property")], .dict [("$ref",
  .str "#/definitions/wds_wireless_property")], .dict [("$ref", .str "#/definitions/encryption_wireless_property_sta")]])]

def owSchema_def_adhoc_wireless_settings : Val := .dict [("allOf", .list [.dict [("required", .list [.str "bssid"]), ("properties", .dict [("mode",
  .dict [("enum", .list [.str "adhoc"])]), ("bssid", .dict [("pattern", .str "([0-9A-Fa-f]{2}[:-]){5}([0-9A-Fa-f]{2})"), ("minLength", .int 17)])])],
  .dict [("$ref", .str "#/definitions/base_wireless_settings")], .dict [("$ref", .str "#/definitions/ssid_wireless_property")], .dict [("$ref",
  .str "#/definitions/bssid_wireless_property")], .dict [("$ref", .str "#/definitions/encryption_wireless_property_mesh")]])]

def owSchema_def_monitor_wireless_settings : Val := .dict [("allOf", .list [.dict [("properties", .dict [("mode", .dict [("enum",
  .list [.str "monitor"])])])], .dict [("$ref", .str "#/definitions/base_wireless_settings")]])]

def owSchema_def_mesh_wireless_settings : Val := .dict [("allOf", .list [.dict [("properties", .dict [("mode", .dict [("enum",
  .list [.str "802.11s"])])])], .dict [("$ref", .str "#/definitions/base_wireless_settings")], .dict [("$ref",
  .str "#/definitions/mesh_id_wireless_property")], .dict [("$ref", .str "#/definitions/encryption_wireless_property_mesh")]])]

def owSchema_def_base_radio_settings : Val := .dict [("type", .str "object"), ("required", .list [.str "protocol", .str "name", .str "channel",
  .str "channel_width"]), ("properties", .dict [("name", .dict [("type", .str "string"), ("minLength", .int 3)]), ("protocol", .dict [("type",
  .str "string")]), ("phy", .dict [("type", .str "string")]), ("channel", .dict [("type", .str "integer")]), ("channel_width", .dict [("type",
  .str "integer")]), ("tx_power", .dict [("type", .str "integer")]), ("country", .dict [("type", .str "string"), ("maxLength", .int 2), ("enum",
  .list [.str "00", .str "AF", .str "AX", .str "AL", .str "DZ", .str "AS", .str "AD", .str "AO", .str "AI", .str "AQ", .str "AG", .str "AR",
  .str "AM", .str "AW", .str "AU", .str "AT", .str "AZ", .str "BS", .str "BH", .str "BD", .str "BB", .str "BY", .str "BE", .str "BZ", .str "BJ",
  .str "BM", .str "BT", .str "BO", .str "BA", .str "BW", .str "BV", .str "BR", .str "IO", .str "BN", .str "BG", .str "BF", .str "BI", .str "KH",
  .str "CM", .str "CA", .str "CV", .str "KY", .str "CF", .str "TD", .str "CL", .str "CN", .str "CX", .str "CC", .str "CO", .str "KM", .str "CG",
  .str "CD", .str "CK", .str "CR", .str "CI", .str "HR", .str "CU", .str "CY", .str "CZ", .str "DK", .str "DJ", .str "DM", .str "DO", .str "EC",
  .str "EG", .str "SV", .str "GQ", .str "ER", .str "EE", .str "ET", .str "FK", .str "FO", .str "FJ", .str "FI", .str "FR", .str "GF", .str "PF",
  .str "TF", .str "MK", .str "GA", .str "GM", .str "GE", .str "DE", .str "GH", .str "GI", .str "GR", .str "GL", .str "GD", .str "GP", .str "GU",
  .str "GT", .str "GG", .str "GN", .str "GW", .str "GY", .str "HT", .str "HM", .str "VA", .str "HN", .str "HK", .str "HU", .str "IS", .str "IN",
  .str "ID", .str "IR", .str "IQ", .str "IE", .str "IM", .str "IL", .str "IT", .str "JM", .str "JP", .str "JE", .str "JO", .str "KZ", .str "KE",
  .str "KI", .str "KP", .str "KR", .str "KW", .str "KG", .str "LA", .str "LV", .str "LB", .str "LS", .str "LR", .str "LY", .str "LI", .str "LT",
  .str "LU", .str "MO", .str "MG", .str "MW", .str "MY", .str "MV", .str "ML", .str "MT", .str "MH", .str "MQ", .str "MR", .str "MU", .str "YT",
  .str "MX", .str "FM", .str "MD", .str "MC", .str "MN", .str "MS", .str "MA", .str "MZ", .str "MM", .str "NA", .str "NR", .str "NP", .str "NL",
  .str "AN", .str "NC", .str "NZ", .str "NI", .str "NE", .str "NG", .str "NU", .str "NF", .str "MP", .str "NO", .str "OM", .str "PK", .str "PW",
  .str "PS", .str "PA", .str "PG", .str "PY", .str "PE", .str "PH", .str "PN", .str "PL", .str "PT", .str "PR", .str "QA", .str "RE", .str "RO",
  .str "RU", .str "RW", .str "SH", .str "KN", .str "LC", .str "PM", .str "VC", .str "WS", .str "SM", .str "ST", .str "SA", .str "SN", .str "CS",
  .str "SC", .str "SL", .str "SG", .str "SK", .str "SI", .str "SB", .str "SO", .str "ZA", .str "GS", .str "ES", .str "LK", .str "SD", .str "SR",
  .str "SJ", .str "SZ", .str "SE", .str "CH", .str "SY", .str "TW", .str "TJ", .str "TZ", .str "TH", .str "TL", .str "TG", .str "TK", .str "TO",
  .str "TT", .str "TN", .str "TR", .str "TM", .str "TC", .str "TV", .str "UG", .str "UA", .str "AE", .str "GB", .str "US", .str "UM", .str "UY",
  .str "UZ", .str "VU", .str "VE", .str "VN", .str "VG", .str "VI", .str "WF", .str "EH", .str "YE", .str "ZM", .str "ZW"])]), ("disabled",
  .dict [("type", .str "boolean")]), ("driver", .dict [("type", .str "string"), ("enum", .list [.str "mac80211", .str "atheros", .str "ath5k",
  .str "ath9k", .str "broadcom"])])])]

def owSchema_def_radio_2ghz_channels : Val := .dict [("properties", .dict [("channel", .dict [("enum", .list [.int 0, .int 1, .int 2, .int 3, .int 4,
  .int 5, .int 6, .int 7, .int 8, .int 9, .int 10, .int 11, .int 12, .int 13])])])]

def owSchema_def_radio_5ghz_channels : Val := .dict [("properties", .dict [("channel", .dict [("enum", .list [.int 0, .int 36, .int 40, .int 44,
  .int 48, .int 52, .int 56, .int 60, .int 64, .int 100, .int 104, .int 108, .int 112, .int 116, .int 120, .int 124, .int 128, .int 132, .int 136,
  .int 140, .int 144, .int 149, .int 153, .int 157, .int 161, .int 165, .int 169, .int 173, .int 177])])])]

def owSchema_def_radio_6ghz_channels : Val := .dict [("properties", .dict [("channel", .dict [("enum", .list [.int 37, .int 41, .int 45, .int 49,
  .int 53, .int 57, .int 61, .int 65, .int 101, .int 105, .int 109, .int 113, .int 117, .int 121, .int 125, .int 129, .int 133, .int 137, .int 141,
  .int 145])])])]

def owSchema_def_radio_60ghz_channels : Val := .dict [("properties", .dict [("channel", .dict [("enum", .list [.int 1, .int 2, .int 3, .int 4,
  .int 5, .int 6, .int 9, .int 10, .int 11, .int 12, .int 13, .int 17, .int 18, .int 19, .int 20, .int 25, .int 26, .int 27])])])]

def owSchema_def_radio_2and5_channels : Val := .dict [("properties", .dict [("channel", .dict [("enum", .list [.int 0, .int 1, .int 2, .int 3,
  .int 4, .int 5, .int 6, .int 7, .int 8, .int 9, .int 10, .int 11, .int 12, .int 13, .int 36, .int 40, .int 44, .int 48, .int 52, .int 56, .int 60,
  .int 64, .int 100, .int 104, .int 108, .int 112, .int 116, .int 120, .int 124, .int 128, .int 132, .int 136, .int 140, .int 144, .int 149,
  .int 153, .int 157, .int 161, .int 165, .int 169, .int 173, .int 177])])])]

def owSchema_def_radio_legacy_channel_width : Val := .dict [("properties", .dict [("channel_width", .dict [("enum", .list [.int 20])])])]

def owSchema_def_radio_n_channel_width : Val := .dict [("properties", .dict [("channel_width", .dict [("enum", .list [.int 20, .int 40])])])]

def owSchema_def_radio_ac_channel_width : Val := .dict [("properties", .dict [("channel_width", .dict [("enum", .list [.int 20, .int 40, .int 80,
  .int 160])])])]

def owSchema_def_radio_ax_channel_width : Val := .dict [("properties", .dict [("channel_width", .dict [("enum", .list [.int 20, .int 40, .int 80,
  .int 160])])])]

def owSchema_def_radio_80211bg_settings : Val := .dict [("allOf", .list [.dict [("properties", .dict [("protocol", .dict [("enum",
  .list [.str "802.11b", .str "802.11g"])])])], .dict [("$ref", .str "#/definitions/base_radio_settings")], .dict [("$ref",
  .str "#/definitions/radio_2ghz_channels")], .dict [("$ref", .str "#/definitions/radio_legacy_channel_width")]])]

def owSchema_def_radio_80211a_settings : Val := .dict [("allOf", .list [.dict [("properties", .dict [("protocol", .dict [("enum",
  .list [.str "802.11a"])])])], .dict [("$ref", .str "#/definitions/base_radio_settings")], .dict [("$ref",
  .str "#/definitions/radio_5ghz_channels")], .dict [("$ref", .str "#/definitions/radio_legacy_channel_width")]])]

def owSchema_def_radio_80211gn_settings : Val := .dict [("allOf", .list [.dict [("properties", .dict [("protocol", .dict [("enum",
  .list [.str "802.11n"])])])], .dict [("$ref", .str "#/definitions/base_radio_settings")], .dict [("$ref",
  .str "#/definitions/radio_2ghz_channels")], .dict [("$ref", .str "#/definitions/radio_n_channel_width")], .dict [("$ref",
  .str "#/definitions/radio_hwmode_11g")], .dict [("$ref", .str "#/definitions/radio_2g_band")]])]

def owSchema_def_radio_80211an_settings : Val := .dict [("allOf", .list [.dict [("properties", .dict [("protocol", .dict [("enum",
  .list [.str "802.11n"])])])], .dict [("$ref", .str "#/definitions/base_radio_settings")], .dict [("$ref",
  .str "#/definitions/radio_5ghz_channels")], .dict [("$ref", .str "#/definitions/radio_n_channel_width")], .dict [("$ref",
  .str "#/definitions/radio_hwmode_11a")], .dict [("$ref", .str "#/definitions/radio_5g_band")]])]

def owSchema_def_radio_80211ac_5ghz_settings : Val := .dict [("allOf", .list [.dict [("properties", .dict [("protocol", .dict [("enum",
  .list [.str "802.11ac"])])])], .dict [("$ref", .str "#/definitions/base_radio_settings")], .dict [("$ref",
  .str "#/definitions/radio_5ghz_channels")], .dict [("$ref", .str "#/definitions/radio_ac_channel_width")], .dict [("$ref",
  .str "#/definitions/radio_hwmode_11a")], .dict [("$ref", .str "#/definitions/radio_5g_band")]])]

def owSchema_def_radio_80211ax_2ghz_settings : Val := .dict [("allOf", .list [.dict [("properties", .dict [("protocol", .dict [("enum",
  .list [.str "802.11ax"])])])], .dict [("$ref", .str "#/definitions/base_radio_settings")], .dict [("$ref",
  .str "#/definitions/radio_2ghz_channels")], .dict [("$ref", .str "#/definitions/radio_ax_channel_width")], .dict [("$ref",
  .str "#/definitions/radio_hwmode_11g")], .dict [("$ref", .str "#/definitions/radio_2g_band")]])]

def owSchema_def_radio_80211ax_5ghz_settings : Val := .dict [("allOf", .list [.dict [("properties", .dict [("protocol", .dict [("enum",
  .list [.str "802.11ax"])])])], .dict [("$ref", .str "#/definitions/base_radio_settings")], .dict [("$ref",
  .str "#/definitions/radio_5ghz_channels")], .dict [("$ref", .str "#/definitions/radio_ax_channel_width")], .dict [("$ref",
  .str "#/definitions/radio_hwmode_11a")], .dict [("$ref", .str "#/definitions/radio_5g_band")]])]

def owSchema_def_radio_80211ax_6ghz_settings : Val := .dict [("allOf", .list [.dict [("properties", .dict [("protocol", .dict [("enum",
  .list [.str "802.11ax"])])])], .dict [("$ref", .str "#/definitions/base_radio_settings")], .dict [("$ref",
  .str "#/definitions/radio_6ghz_channels")], .dict [("$ref", .str "#/definitions/radio_ax_channel_width")], .dict [("$ref",
  .str "#/definitions/radio_6g_band")]])]

def owSchema_def_radio_80211ad_60ghz_settings : Val := .dict [("allOf", .list [.dict [("properties", .dict [("protocol", .dict [("enum",
  .list [.str "802.11ad"])])])], .dict [("$ref", .str "#/definitions/base_radio_settings")], .dict [("$ref",
  .str "#/definitions/radio_60ghz_channels")], .dict [("$ref", .str "#/definitions/radio_ax_channel_width")], .dict [("$ref",
  .str "#/definitions/radio_60g_band")]])]

def owSchema_def_vlan_interface_settings : Val := .dict [("properties", .dict [("name", .dict []), ("vid", .dict [("type", .str "integer"),
  ("minimum", .int 0)]), ("ingress_qos_mapping", .dict [("type", .str "array"), ("uniqueItems", .bool true), ("items", .dict [("type",
  .str "string"), ("pattern", .str "^[0-9]\\d*:[0-9]\\d*$")])]), ("egress_qos_mapping", .dict [("type", .str "array"), ("uniqueItems", .bool true),
  ("items", .dict [("type", .str "string"), ("pattern", .str "^[0-9]\\d*:[0-9]\\d*$")])])])]

def owSchema_def_vlan_8021q : Val := .dict [("type", .str "object"), ("required", .list [.str "type", .str "vid"]), ("allOf",
  .list [.dict [("properties", .dict [("type", .dict [("type", .str "string"), ("enum", .list [.str "8021q"])])])], .dict [("$ref",
  .str "#/definitions/base_interface_settings")], .dict [("$ref", .str "#/definitions/interface_settings")], .dict [("$ref",
  .str "#/definitions/vlan_interface_settings")]])]

def owSchema_def_vlan_8021ad : Val := .dict [("type", .str "object"), ("required", .list [.str "type", .str "vid"]), ("allOf",
  .list [.dict [("properties", .dict [("type", .dict [("type", .str "string"), ("enum", .list [.str "8021ad"])])])], .dict [("$ref",
  .str "#/definitions/base_interface_settings")], .dict [("$ref", .str "#/definitions/interface_settings")], .dict [("$ref",
  .str "#/definitions/vlan_interface_settings")]])]

def owSchema_def_dialup_interface : Val := .dict [("required", .list [.str "proto", .str "username", .str "password"]), ("allOf",
  .list [.dict [("properties", .dict [("type", .dict [("type", .str "string"), ("enum", .list [.str "dialup"])]), ("proto", .dict [("type",
  .str "string"), ("enum", .list [.str "3g", .str "6in4", .str "aiccu", .str "l2tp", .str "ncm", .str "ppp", .str "pppoa", .str "pppoe", .str "pptp",
  .str "qmi", .str "wwan"])]), ("username", .dict [("type", .str "string")]), ("password", .dict [("type", .str "string")])])], .dict [("$ref",
  .str "#/definitions/base_interface_settings")], .dict [("$ref", .str "#/definitions/interface_settings")]])]

def owSchema_def_modemmanager_interface : Val := .dict [("type", .str "object"), ("required", .list [.str "name", .str "device"]), ("allOf",
  .list [.dict [("properties", .dict [("type", .dict [("type", .str "string"), ("enum", .list [.str "modem-manager"])]), ("apn", .dict [("type",
  .str "string")]), ("pin", .dict [("type", .str "string")]), ("device", .dict [("type", .str "string")]), ("username", .dict [("type",
  .str "string")]), ("password", .dict [("type", .str "string")]), ("metric", .dict [("type", .str "integer")]), ("iptype", .dict [("type",
  .str "string"), ("enum", .list [.str "ipv4", .str "ipv6", .str "ipv4v6"])]), ("lowpower", .dict [("type", .str "boolean")]), ("signalrate",
  .dict [("type", .str "integer")]), ("force_link", .dict [("type", .str "boolean")]), ("loglevel", .dict [("type", .str "string"), ("enum",
  .list [.str "ERR", .str "WARN", .str "INFO", .str "DEBUG"])])])], .dict [("$ref", .str "#/definitions/base_interface_settings")]])]

def owSchema_def_wireguard_interface : Val := .dict [("type", .str "object"), ("required", .list [.str "private_key"]), ("allOf",
  .list [.dict [("properties", .dict [("type", .dict [("type", .str "string"), ("enum", .list [.str "wireguard"])]), ("private_key", .dict [("type",
  .str "string"), ("maxLength", .int 44), ("pattern", .str "^[^\\s]*$")]), ("port", .dict [("type", .str "integer"), ("maximum", .int 65535),
  ("minimum", .int 1)]), ("mtu", .dict [("type", .str "integer")]), ("nohostroute", .dict [("type", .str "boolean")]), ("fwmark", .dict [("type",
  .str "string")]), ("ip6prefix", .dict [("type", .str "array"), ("items", .dict [("type", .str "string"), ("uniqueItems", .bool true)])]),
  ("addresses", .dict [("type", .str "array"), ("uniqueItems", .bool true), ("items", .dict [("required", .list [.str "proto", .str "family",
  .str "address", .str "mask"]), ("oneOf", .list [.dict [("type", .str "object"), ("properties", .dict [("proto", .dict [("type", .str "string"),
  ("enum", .list [.str "static"])]), ("family", .dict [("type", .str "string"), ("enum", .list [.str "ipv4"])]), ("address", .dict [("type",
  .str "string"), ("minLength", .int 7)]), ("mask", .dict [("type", .str "number"), ("minimum", .int 8)])])], .dict [("type", .str "object"),
  ("properties", .dict [("proto", .dict [("type", .str "string"), ("enum", .list [.str "static"])]), ("family", .dict [("type", .str "string"),
  ("enum", .list [.str "ipv6"])]), ("address", .dict [("type", .str "string"), ("minLength", .int 3), ("format", .str "ipv6")]), ("mask",
  .dict [("type", .str "number"), ("minimum", .int 4)])])]])])])])], .dict [("$ref", .str "#/definitions/base_interface_settings")]])]

def owSchema_def_vxlan_interface : Val := .dict [("required", .list [.str "vtep", .str "port", .str "vni", .str "tunlink"]), ("allOf",
  .list [.dict [("properties", .dict [("type", .dict [("type", .str "string"), ("enum", .list [.str "vxlan"])]), ("vtep", .dict [("type",
  .str "string")]), ("port", .dict [("type", .str "integer"), ("minimum", .int 1), ("maximum", .int 65535)]), ("vni", .dict [("type",
  .list [.str "integer", .str "string"]), ("minimum", .int 1), ("maximum", .int 16777216)]), ("tunlink", .dict [("type", .str "string")]), ("rxcsum",
  .dict [("type", .str "boolean")]), ("txcsum", .dict [("type", .str "boolean")]), ("mtu", .dict [("type", .str "integer")]), ("ttl", .dict [("type",
  .str "integer")]), ("mac", .dict [("type", .str "string"), ("pattern", .str "^(([0-9A-Fa-f]{2}[:-]){5}([0-9A-Fa-f]{2})|)$"), ("maxLength",
  .int 17)])])], .dict [("$ref", .str "#/definitions/base_interface_settings")]])]

def owSchema_def_radio_hwmode_11g : Val := .dict [("properties", .dict [("hwmode", .dict [("type", .str "string"), ("enum", .list [.str "11g"])])])]

def owSchema_def_radio_hwmode_11a : Val := .dict [("properties", .dict [("hwmode", .dict [("type", .str "string"), ("enum", .list [.str "11a"])])])]

def owSchema_def_radio_2g_band : Val := .dict [("properties", .dict [("band", .dict [("type", .str "string"), ("enum", .list [.str "2g"])])])]

def owSchema_def_radio_5g_band : Val := .dict [("properties", .dict [("band", .dict [("type", .str "string"), ("enum", .list [.str "5g"])])])]

def owSchema_def_radio_6g_band : Val := .dict [("properties", .dict [("band", .dict [("type", .str "string"), ("enum", .list [.str "6g"])])])]

def owSchema_def_radio_60g_band : Val := .dict [("properties", .dict [("band", .dict [("type", .str "string"), ("enum", .list [.str "60g"])])])]

def owSchema_def_tunnel : Val := .dict [("type", .str "object"), ("required", .list [.str "name", .str "mode", .str "proto", .str "dev"]),
  ("properties", .dict [("name", .dict [("type", .str "string"), ("minLength", .int 2), ("maxLength", .int 24), ("pattern",
  .str "^[0-9A-Za-z_-]*$")]), ("mode", .dict [("type", .str "string")]), ("proto", .dict [("type", .str "string")]), ("port", .dict [("type",
  .str "integer"), ("maximum", .int 65535), ("minimum", .int 1)]), ("dev_type", .dict [("type", .str "string"), ("enum", .list [.str "tun",
  .str "tap"])]), ("dev", .dict [("type", .str "string"), ("minLength", .int 2), ("maxLength", .int 15), ("pattern", .str "^[^\\s]*$")]), ("local",
  .dict [("type", .str "string")]), ("auth", .dict [("type", .str "string"), ("enum", .list [.str "DSA", .str "DSA-SHA", .str "DSA-SHA1",
  .str "DSA-SHA1-old", .str "MD4", .str "MD5", .str "MDC2", .str "RIPEMD160", .str "RSA-MD4", .str "RSA-MD5", .str "RSA-MDC2", .str "RSA-RIPEMD160",
  .str "RSA-SHA", .str "RSA-SHA1", .str "RSA-SHA1-2", .str "RSA-SHA224", .str "RSA-SHA256", .str "RSA-SHA384", .str "RSA-SHA512", .str "SHA",
  .str "SHA1", .str "SHA224", .str "SHA256", .str "SHA384", .str "SHA512", .str "ecdsa-with-SHA1", .str "whirlpool", .str "none"])]),
  ("data_ciphers", .dict [("type", .str "array"), ("minItems", .int 1), ("items", .dict [("type", .str "object"), ("required", .list [.str "cipher",
  .str "optional"]), ("properties", .dict [("cipher", .dict [("type", .str "string"), ("enum", .list [.str "", .str "AES-128-CBC",
  .str "AES-128-CFB", .str "AES-128-CFB1", .str "AES-128-CFB8", .str "AES-128-GCM", .str "AES-128-OFB", .str "AES-192-CBC", .str "AES-192-CFB",
  .str "AES-192-CFB1", .str "AES-192-CFB8", .str "AES-192-GCM", .str "AES-192-OFB", .str "AES-256-CBC", .str "AES-256-CFB", .str "AES-256-CFB1",
  .str "AES-256-CFB8", .str "AES-256-GCM", .str "AES-256-OFB", .str "ARIA-128-CBC", .str "ARIA-128-CFB", .str "ARIA-128-CFB1", .str "ARIA-128-CFB8",
  .str "ARIA-128-OFB", .str "ARIA-192-CBC", .str "ARIA-192-CFB", .str "ARIA-192-CFB1", .str "ARIA-192-CFB8", .str "ARIA-192-OFB",
  .str "ARIA-256-CBC", .str "ARIA-256-CFB", .str "ARIA-256-CFB1", .str "ARIA-256-CFB8", .str "ARIA-256-OFB", .str "CAMELLIA-128-CBC",
  .str "CAMELLIA-128-CFB", .str "CAMELLIA-128-CFB1", .str "CAMELLIA-128-CFB8", .str "CAMELLIA-128-OFB", .str "CAMELLIA-192-CBC",
  .str "CAMELLIA-192-CFB", .str "CAMELLIA-192-CFB1", .str "CAMELLIA-192-CFB8", .str "CAMELLIA-192-OFB", .str "CAMELLIA-256-CBC",
  .str "CAMELLIA-256-CFB", .str "CAMELLIA-256-CFB1", .str "CAMELLIA-256-CFB8", .str "CAMELLIA-256-OFB", .str "CHACHA20-POLY1305", .str "SEED-CBC",
  .str "SEED-CFB", .str "SEED-OFB", .str "SM4-CBC", .str "SM4-CFB", .str "SM4-OFB", .str "BF-CBC", .str "BF-CFB", .str "BF-OFB", .str "CAST5-CBC",
  .str "CAST5-CFB", .str "CAST5-OFB", .str "DES-CBC", .str "DES-CFB", .str "DES-CFB1", .str "DES-CFB8", .str "DES-EDE-CBC", .str "DES-EDE-CFB",
  .str "DES-EDE-OFB", .str "DES-EDE3-CBC", .str "DES-EDE3-CFB", .str "DES-EDE3-CFB1", .str "DES-EDE3-CFB8", .str "DES-EDE3-OFB", .str "DES-OFB",
  .str "DESX-CBC", .str "RC2-40-CBC", .str "RC2-64-CBC", .str "RC2-CBC", .str "RC2-CFB", .str "RC2-OFB", .str "none"])]), ("optional",
  .dict [("type", .str "boolean")])])])]), ("data_ciphers_fallback", .dict [("type", .str "string"), ("enum", .list [.str "AES-128-CBC",
  .str "AES-128-CFB", .str "AES-128-CFB1", .str "AES-128-CFB8", .str "AES-128-GCM", .str "AES-128-OFB", .str "AES-192-CBC", .str "AES-192-CFB",
  .str "AES-192-CFB1", .str "AES-192-CFB8", .str "AES-192-GCM", .str "AES-192-OFB", .str "AES-256-CBC", .str "AES-256-CFB", .str "AES-256-CFB1",
  .str "AES-256-CFB8", .str "AES-256-GCM", .str "AES-256-OFB", .str "ARIA-128-CBC", .str "ARIA-128-CFB", .str "ARIA-128-CFB1", .str "ARIA-128-CFB8",
  .str "ARIA-128-OFB", .str "ARIA-192-CBC", .str "ARIA-192-CFB", .str "ARIA-192-CFB1", .str "ARIA-192-CFB8", .str "ARIA-192-OFB",
  .str "ARIA-256-CBC", .str "ARIA-256-CFB", .str "ARIA-256-CFB1", .str "ARIA-256-CFB8", .str "ARIA-256-OFB", .str "CAMELLIA-128-CBC",
  .str "CAMELLIA-128-CFB", .str "CAMELLIA-128-CFB1", .str "CAMELLIA-128-CFB8", .str "CAMELLIA-128-OFB", .str "CAMELLIA-192-CBC",
  .str "CAMELLIA-192-CFB", .str "CAMELLIA-192-CFB1", .str "CAMELLIA-192-CFB8", .str "CAMELLIA-192-OFB", .str "CAMELLIA-256-CBC",
  .str "CAMELLIA-256-CFB", .str "CAMELLIA-256-CFB1", .str "CAMELLIA-256-CFB8", .str "CAMELLIA-256-OFB", .str "CHACHA20-POLY1305", .str "SEED-CBC",
  .str "SEED-CFB", .str "SEED-OFB", .str "SM4-CBC", .str "SM4-CFB", .str "SM4-OFB", .str "BF-CBC", .str "BF-CFB", .str "BF-OFB", .str "CAST5-CBC",
  .str "CAST5-CFB", .str "CAST5-OFB", .str "DES-CBC", .str "DES-CFB", .str "DES-CFB1", .str "DES-CFB8", .str "DES-EDE-CBC", .str "DES-EDE-CFB",
  .str "DES-EDE-OFB", .str "DES-EDE3-CBC", .str "DES-EDE3-CFB", .str "DES-EDE3-CFB1", .str "DES-EDE3-CFB8", .str "DES-EDE3-OFB", .str "DES-OFB",
  .str "DESX-CBC", .str "RC2-40-CBC", .str "RC2-64-CBC", .str "RC2-CBC", .str "RC2-CFB", .str "RC2-OFB", .str "none"])]), ("cipher", .dict [("type",
  .str "string"), ("enum", .list [.str "AES-128-CBC", .str "AES-128-CFB", .str "AES-128-CFB1", .str "AES-128-CFB8", .str "AES-128-GCM",
  .str "AES-128-OFB", .str "AES-192-CBC", .str "AES-192-CFB", .str "AES-192-CFB1", .str "AES-192-CFB8", .str "AES-192-GCM", .str "AES-192-OFB",
  .str "AES-256-CBC", .str "AES-256-CFB", .str "AES-256-CFB1", .str "AES-256-CFB8", .str "AES-256-GCM", .str "AES-256-OFB", .str "ARIA-128-CBC",
  .str "ARIA-128-CFB", .str "ARIA-128-CFB1", .str "ARIA-128-CFB8", .str "ARIA-128-OFB", .str "ARIA-192-CBC", .str "ARIA-192-CFB",
  .str "ARIA-192-CFB1", .str "ARIA-192-CFB8", .str "ARIA-192-OFB", .str "ARIA-256-CBC", .str "ARIA-256-CFB", .str "ARIA-256-CFB1",
  .str "ARIA-256-CFB8", .str "ARIA-256-OFB", .str "CAMELLIA-128-CBC", .str "CAMELLIA-128-CFB", .str "CAMELLIA-128-CFB1", .str "CAMELLIA-128-CFB8",
  .str "CAMELLIA-128-OFB", .str "CAMELLIA-192-CBC", .str "CAMELLIA-192-CFB", .str "CAMELLIA-192-CFB1", .str "CAMELLIA-192-CFB8",
  .str "CAMELLIA-192-OFB", .str "CAMELLIA-256-CBC", .str "CAMELLIA-256-CFB", .str "CAMELLIA-256-CFB1", .str "CAMELLIA-256-CFB8",
  .str "CAMELLIA-256-OFB", .str "CHACHA20-POLY1305", .str "SEED-CBC", .str "SEED-CFB", .str "SEED-OFB", .str "SM4-CBC", .str "SM4-CFB",
  .str "SM4-OFB", .str "BF-CBC", .str "BF-CFB", .str "BF-OFB", .str "CAST5-CBC", .str "CAST5-CFB", .str "CAST5-OFB", .str "DES-CBC", .str "DES-CFB",
  .str "DES-CFB1", .str "DES-CFB8", .str "DES-EDE-CBC", .str "DES-EDE-CFB", .str "DES-EDE-OFB", .str "DES-EDE3-CBC", .str "DES-EDE3-CFB",
  .str "DES-EDE3-CFB1", .str "DES-EDE3-CFB8", .str "DES-EDE3-OFB", .str "DES-OFB", .str "DESX-CBC", .str "RC2-40-CBC", .str "RC2-64-CBC",
  .str "RC2-CBC", .str "RC2-CFB", .str "RC2-OFB", .str "none"])]), ("engine", .dict [("type", .str "string"), ("enum", .list [.str "", .str "bsd",
  .str "rsax", .str "dynamic"])]), ("ca", .dict [("type", .str "string"), ("pattern", .str "^(\\S*)$")]), ("cert", .dict [("type", .str "string"),
  ("pattern", .str "^(\\S*)$")]), ("key", .dict [("type", .str "string"), ("pattern", .str "^(\\S*)$")]), ("pkcs12", .dict [("type", .str "string"),
  ("pattern", .str "^(\\S*)$")]), ("tls_auth", .dict [("type", .str "string")]), ("ns_cert_type", .dict [("type", .str "string")]), ("mtu_disc",
  .dict [("type", .str "string"), ("enum", .list [.str "no", .str "maybe", .str "yes"])]), ("mtu_test", .dict [("type", .str "boolean")]),
  ("fragment", .dict [("type", .str "integer"), ("minimum", .int 0)]), ("mssfix", .dict [("type", .str "integer"), ("minimum", .int 0)]),
  ("keepalive", .dict [("type", .str "string"), ("pattern", .str "^(([0-9]*) ([0-9]*)|)$")]), ("persist_tun", .dict [("type", .str "boolean")]),
  ("persist_key", .dict [("type", .str "boolean")]), ("tun_ipv6", .dict [("type", .str "boolean")]), ("up", .dict [("type", .str "string"),
  ("pattern", .str "^(\\S*)$")]), ("up_delay", .dict [("type", .str "integer"), ("minimum", .int 0)]), ("down", .dict [("type", .str "string"),
  ("pattern", .str "^(\\S*)$")]), ("script_security", .dict [("type", .str "integer"), ("enum", .list [.int 0, .int 1, .int 2, .int 3])]), ("user",
  .dict [("type", .str "string")]), ("group", .dict [("type", .str "string")]), ("mute", .dict [("type", .str "integer"), ("minimum", .int 0)]),
  ("status", .dict [("type", .str "string"), ("pattern", .str "^((\\S*) ([0-9]*)|(\\S*)|)$")]), ("status_version", .dict [("type", .str "integer"),
  ("enum", .list [.int 1, .int 2, .int 3])]), ("mute_replay_warnings", .dict [("type", .str "boolean")]), ("secret", .dict [("type", .str "string"),
  ("pattern", .str "^(\\S*)$")]), ("reneg_sec", .dict [("type", .str "integer")]), ("tls_timeout", .dict [("type", .str "integer")]), ("tls_cipher",
  .dict [("type", .str "string")]), ("remote_cert_tls", .dict [("type", .str "string")]), ("float", .dict [("type", .str "boolean")]),
  ("auth_nocache", .dict [("type", .str "boolean")]), ("fast_io", .dict [("type", .str "boolean")]), ("log", .dict [("type", .str "string"),
  ("pattern", .str "^(\\S*)$")]), ("verb", .dict [("type", .str "integer"), ("enum", .list [.int 0, .int 1, .int 2, .int 3, .int 4, .int 5, .int 6,
  .int 7, .int 8, .int 9, .int 10, .int 11])]), ("allow_compression", .dict [("type", .str "string"), ("enum", .list [.str "", .str "asym",
  .str "no", .str "yes"])]), ("compress", .dict [("type", .str "string"), ("enum", .list [.str "", .str "lzo", .str "lz4", .str "lz4-v2",
  .str "stub", .str "stub-v2", .str "migrate"])]), ("comp_lzo", .dict [("type", .str "string"), ("enum", .list [.str "", .str "yes", .str "no",
  .str "adaptive"])]), ("disabled", .dict [("type", .str "boolean")])])]

def owSchema_def_client : Val := .dict [("allOf", .list [.dict [("$ref", .str "#/definitions/tunnel")], .dict [("type", .str "object"), ("required",
  .list [.str "remote"]), ("properties", .dict [("mode", .dict [("enum", .list [.str "p2p"])]), ("proto", .dict [("enum", .list [.str "udp",
  .str "tcp-client"])]), ("remote", .dict [("type", .str "array"), ("minItems", .int 1), ("items", .dict [("type", .str "object"),
  ("additionalProperties", .bool false), ("required", .list [.str "host", .str "port"]), ("properties", .dict [("host", .dict [("type",
  .str "string"), ("maxLength", .int 63), ("minLength", .int 1), ("format", .str "hostname")]), ("port", .dict [("type", .str "integer"), ("maximum",
  .int 65535), ("minimum", .int 1)]), ("proto", .dict [("type", .str "string"), ("enum", .list [.str "auto", .str "udp", .str "udp4", .str "udp6",
  .str "tcp", .str "tcp4", .str "tcp6"])])])])]), ("remote_random", .dict [("type", .str "boolean")]), ("port", .dict [("type", .str "integer")]),
  ("nobind", .dict [("type", .str "boolean")]), ("resolv_retry", .dict [("type", .str "string"), ("pattern", .str "^(infinite)|([0-9])$")]),
  ("tls_client", .dict [("type", .str "boolean")]), ("pull", .dict [("type", .str "boolean")]), ("ns_cert_type", .dict [("enum", .list [.str "",
  .str "server"])]), ("auth_user_pass", .dict [("type", .str "string"), ("pattern", .str "^(\\S*)$")]), ("auth_retry", .dict [("type",
  .str "string"), ("enum", .list [.str "none", .str "nointeract", .str "interact"])]), ("remote_cert_tls", .dict [("enum", .list [.str "",
  .str "server"])])])]])]

def owSchema_def_server : Val := .dict [("type", .str "object"), ("properties", .dict [("mode", .dict [("enum", .list [.str "server"])]), ("proto",
  .dict [("enum", .list [.str "udp", .str "tcp-server"])]), ("topology", .dict [("enum", .list [.str "net30", .str "p2p", .str "subnet"]), ("type",
  .str "string")]), ("tls_server", .dict [("type", .str "boolean")]), ("dh", .dict [("type", .str "string")]), ("crl_verify", .dict [("type",
  .str "string"), ("pattern", .str "^(\\S*)$")]), ("ns_cert_type", .dict [("enum", .list [.str "", .str "client"])]), ("duplicate_cn",
  .dict [("type", .str "boolean")]), ("client_to_client", .dict [("type", .str "boolean")]), ("client_cert_not_required", .dict [("type",
  .str "boolean")]), ("username_as_common_name", .dict [("type", .str "boolean")]), ("auth_user_pass_verify", .dict [("type", .str "string"),
  ("pattern", .str "^((\\S*) (\\S*)|)$")]), ("remote_cert_tls", .dict [("enum", .list [.str "", .str "client"])])])]

def owSchema_def_server_manual : Val := .dict [("allOf", .list [.dict [("$ref", .str "#/definitions/tunnel")], .dict [("$ref",
  .str "#/definitions/server")], .dict [("not", .dict [("required", .list [.str "server"])])], .dict [("not", .dict [("required",
  .list [.str "server_bridge"])])]])]

def owSchema_def_server_bridged : Val := .dict [("allOf", .list [.dict [("type", .str "object"), ("required", .list [.str "server_bridge"]),
  ("properties", .dict [("server_bridge", .dict [("type", .str "string")])])], .dict [("$ref", .str "#/definitions/tunnel")], .dict [("$ref",
  .str "#/definitions/server")]])]

def owSchema_def_server_routed : Val := .dict [("allOf", .list [.dict [("type", .str "object"), ("required", .list [.str "server"]), ("properties",
  .dict [("server", .dict [("type", .str "string"), ("minLength", .int 15)])])], .dict [("$ref", .str "#/definitions/tunnel")], .dict [("$ref",
  .str "#/definitions/server")]])]

def owSchema_definitions : VDict := [("base_address", owSchema_def_base_address), ("static_address", owSchema_def_static_address), ("ipv4_address",
  owSchema_def_ipv4_address), ("ipv6_address", owSchema_def_ipv6_address), ("dhcp_address", owSchema_def_dhcp_address), ("base_interface_settings",
  owSchema_def_base_interface_settings), ("interface_settings", owSchema_def_interface_settings), ("network_interface",
  owSchema_def_network_interface), ("wireless_interface", owSchema_def_wireless_interface), ("bridge_interface", owSchema_def_bridge_interface),
  ("base_wireless_settings", owSchema_def_base_wireless_settings), ("ssid_wireless_property", owSchema_def_ssid_wireless_property),
  ("hidden_wireless_property", owSchema_def_hidden_wireless_property), ("bssid_wireless_property", owSchema_def_bssid_wireless_property),
  ("wds_wireless_property", owSchema_def_wds_wireless_property), ("mesh_id_wireless_property", owSchema_def_mesh_id_wireless_property),
  ("encryption_wireless_property_ap", owSchema_def_encryption_wireless_property_ap), ("encryption_wireless_property_sta",
  owSchema_def_encryption_wireless_property_sta), ("encryption_wireless_property_mesh", owSchema_def_encryption_wireless_property_mesh),
  ("encryption_none", owSchema_def_encryption_none), ("encryption_base_settings", owSchema_def_encryption_base_settings),
  ("encryption_cipher_property", owSchema_def_encryption_cipher_property), ("encryption_cipher_ccmp_required",
  owSchema_def_encryption_cipher_ccmp_required), ("encryption_mfp_property", owSchema_def_encryption_mfp_property),
  ("encryption_mfp_property_required", owSchema_def_encryption_mfp_property_required), ("encryption_mfp_property_optional",
  owSchema_def_encryption_mfp_property_optional), ("encryption_owe", owSchema_def_encryption_owe), ("encryption_wpa3_personal",
  owSchema_def_encryption_wpa3_personal), ("encryption_wpa3_personal_mixed", owSchema_def_encryption_wpa3_personal_mixed),
  ("encryption_wpa_personal", owSchema_def_encryption_wpa_personal), ("encryption_wpa_enterprise_ap_base_settings",
  owSchema_def_encryption_wpa_enterprise_ap_base_settings), ("encryption_wpa_enterprise_sta_base_settings",
  owSchema_def_encryption_wpa_enterprise_sta_base_settings), ("encryption_wpa3_enterprise_base_settings",
  owSchema_def_encryption_wpa3_enterprise_base_settings), ("encryption_wpa3_enterprise_mixed_base_settings",
  owSchema_def_encryption_wpa3_enterprise_mixed_base_settings), ("encryption_wpa3_enterprise_ap", owSchema_def_encryption_wpa3_enterprise_ap),
  ("encryption_wpa3_enterprise_ap_mixed", owSchema_def_encryption_wpa3_enterprise_ap_mixed), ("encryption_wpa3_enterprise_sta",
  owSchema_def_encryption_wpa3_enterprise_sta), ("encryption_wpa3_enterprise_sta_mixed", owSchema_def_encryption_wpa3_enterprise_sta_mixed),
  ("encryption_wpa_enterprise_base_settings", owSchema_def_encryption_wpa_enterprise_base_settings), ("encryption_wpa_enterprise_ap",
  owSchema_def_encryption_wpa_enterprise_ap), ("encryption_wpa_enterprise_sta", owSchema_def_encryption_wpa_enterprise_sta), ("encryption_wep",
  owSchema_def_encryption_wep), ("encryption_wps", owSchema_def_encryption_wps), ("ap_wireless_settings", owSchema_def_ap_wireless_settings),
  ("sta_wireless_settings", owSchema_def_sta_wireless_settings), ("adhoc_wireless_settings", owSchema_def_adhoc_wireless_settings),
  ("monitor_wireless_settings", owSchema_def_monitor_wireless_settings), ("mesh_wireless_settings", owSchema_def_mesh_wireless_settings),
  ("base_radio_settings", owSchema_def_base_radio_settings), ("radio_2ghz_channels", owSchema_def_radio_2ghz_channels), ("radio_5ghz_channels",
  owSchema_def_radio_5ghz_channels), ("radio_6ghz_channels", owSchema_def_radio_6ghz_channels), ("radio_60ghz_channels",
  owSchema_def_radio_60ghz_channels), ("radio_2and5_channels", owSchema_def_radio_2and5_channels), ("radio_legacy_channel_width",
  owSchema_def_radio_legacy_channel_width), ("radio_n_channel_width", owSchema_def_radio_n_channel_width), ("radio_ac_channel_width",
  owSchema_def_radio_ac_channel_width), ("radio_ax_channel_width", owSchema_def_radio_ax_channel_width), ("radio_80211bg_settings",
  owSchema_def_radio_80211bg_settings), ("radio_80211a_settings", owSchema_def_radio_80211a_settings), ("radio_80211gn_settings",
  owSchema_def_radio_80211gn_settings), ("radio_80211an_settings", owSchema_def_radio_80211an_settings), ("radio_80211ac_5ghz_settings",
  owSchema_def_radio_80211ac_5ghz_settings), ("radio_80211ax_2ghz_settings", owSchema_def_radio_80211ax_2ghz_settings),
  ("radio_80211ax_5ghz_settings", owSchema_def_radio_80211ax_5ghz_settings), ("radio_80211ax_6ghz_settings",
  owSchema_def_radio_80211ax_6ghz_settings), ("radio_80211ad_60ghz_settings", owSchema_def_radio_80211ad_60ghz_settings), ("vlan_interface_settings",
  owSchema_def_vlan_interface_settings), ("vlan_8021q", owSchema_def_vlan_8021q), ("vlan_8021ad", owSchema_def_vlan_8021ad), ("dialup_interface",
  owSchema_def_dialup_interface), ("modemmanager_interface", owSchema_def_modemmanager_interface), ("wireguard_interface",
  owSchema_def_wireguard_interface), ("vxlan_interface", owSchema_def_vxlan_interface), ("radio_hwmode_11g", owSchema_def_radio_hwmode_11g),
  ("radio_hwmode_11a", owSchema_def_radio_hwmode_11a), ("radio_2g_band", owSchema_def_radio_2g_band), ("radio_5g_band", owSchema_def_radio_5g_band),
  ("radio_6g_band", owSchema_def_radio_6g_band), ("radio_60g_band", owSchema_def_radio_60g_band), ("tunnel", owSchema_def_tunnel), ("client",
  owSchema_def_client), ("server", owSchema_def_server), ("server_manual", owSchema_def_server_manual), ("server_bridged",
  owSchema_def_server_bridged), ("server_routed", owSchema_def_server_routed)]

def owSchema_pro_general : Val := .dict [("type", .str "object"), ("properties", .dict [("hostname", .dict [("type", .str "string"), ("maxLength",
  .int 63), ("minLength", .int 1), ("format", .str "hostname")]), ("timezone", .dict [("type", .str "string"), ("enum", .list [.str "UTC",
  .str "Africa/Abidjan", .str "Africa/Accra", .str "Africa/Addis Ababa", .str "Africa/Algiers", .str "Africa/Asmara", .str "Africa/Bamako",
  .str "Africa/Bangui", .str "Africa/Banjul", .str "Africa/Bissau", .str "Africa/Blantyre", .str "Africa/Brazzaville", .str "Africa/Bujumbura",
  .str "Africa/Cairo", .str "Africa/Casablanca", .str "Africa/Ceuta", .str "Africa/Conakry", .str "Africa/Dakar", .str "Africa/Dar es Salaam",
  .str "Africa/Djibouti", .str "Africa/Douala", .str "Africa/El Aaiun", .str "Africa/Freetown", .str "Africa/Gaborone", .str "Africa/Harare",
  .str "Africa/Johannesburg", .str "Africa/Juba", .str "Africa/Kampala", .str "Africa/Khartoum", .str "Africa/Kigali", .str "Africa/Kinshasa",
  .str "Africa/Lagos", .str "Africa/Libreville", .str "Africa/Lome", .str "Africa/Luanda", .str "Africa/Lubumbashi", .str "Africa/Lusaka",
  .str "Africa/Malabo", .str "Africa/Maputo", .str "Africa/Maseru", .str "Africa/Mbabane", .str "Africa/Mogadishu", .str "Africa/Monrovia",
  .str "Africa/Nairobi", .str "Africa/Ndjamena", .str "Africa/Niamey", .str "Africa/Nouakchott", .str "Africa/Ouagadougou", .str "Africa/Porto-Novo",
  .str "Africa/Sao Tome", .str "Africa/Tripoli", .str "Africa/Tunis", .str "Africa/Windhoek", .str "America/Adak", .str "America/Anchorage",
  .str "America/Anguilla", .str "America/Antigua", .str "America/Araguaina", .str "America/Argentina/Buenos Aires",
  .str "America/Argentina/Catamarca", .str "America/Argentina/Cordoba", .str "America/Argentina/Jujuy", .str "America/Argentina/La Rioja",
  .str "America/Argentina/Mendoza", .str "America/Argentina/Rio Gallegos", .str "America/Argentina/Salta", .str "America/Argentina/San Juan",
  .str "America/Argentina/San Luis", .str "America/Argentina/Tucuman", .str "America/Argentina/Ushuaia", .str "America/Aruba",
  .str "America/Asuncion", .str "America/Atikokan", .str "America/Bahia", .str "America/Bahia Banderas", .str "America/Barbados",
  .str "America/Belem", .str "America/Belize", .str "America/Blanc-Sablon", .str "America/Boa Vista", .str "America/Bogota", .str "America/Boise",
  .str "America/Cambridge Bay", .str "America/Campo Grande", .str "America/Cancun", .str "America/Caracas", .str "America/Cayenne",
  .str "America/Cayman", .str "America/Chicago", .str "America/Chihuahua", .str "America/Costa Rica", .str "America/Creston", .str "America/Cuiaba",
  .str "America/Curacao", .str "America/Danmarkshavn", .str "America/Dawson", .str "America/Dawson Creek", .str "America/Denver",
  .str "America/Detroit", .str "America/Dominica", .str "America/Edmonton", .str "America/Eirunepe", .str "America/El Salvador",
  .str "America/Fort Nelson", .str "America/Fortaleza", .str "America/Glace Bay", .str "America/Goose Bay", .str "America/Grand Turk",
  .str "America/Grenada", .str "America/Guadeloupe", .str "America/Guatemala", .str "America/Guayaquil", .str "America/Guyana",
  .str "America/Halifax", .str "America/Havana", .str "America/Hermosillo", .str "America/Indiana/Indianapolis", .str "America/Indiana/Knox",
  .str "America/Indiana/Marengo", .str "America/Indiana/Petersburg", .str "America/Indiana/Tell City", .str "America/Indiana/Vevay",
  .str "America/Indiana/Vincennes", .str "America/Indiana/Winamac", .str "America/Inuvik", .str "America/Iqaluit", .str "America/Jamaica",
  .str "America/Juneau", .str "America/Kentucky/Louisville", .str "America/Kentucky/Monticello", .str "America/Kralendijk", .str "America/La Paz",
  .str "America/Lima", .str "America/Los Angeles", .str "America/Lower Princes", .str "America/Maceio", .str "America/Managua",
  .str "America/Manaus", .str "America/Marigot", .str "America/Martinique", .str "America/Matamoros", .str "America/Mazatlan",
  .str "America/Menominee", .str "America/Merida", .str "America/Metlakatla", .str "America/Mexico City", .str "America/Miquelon",
  .str "America/Moncton", .str "America/Monterrey", .str "America/Montevideo", .str "America/Montreal", .str "America/Montserrat",
  .str "America/Nassau", .str "America/New York", .str "America/Nipigon", .str "America/Nome", .str "America/Noronha",
  .str "America/North Dakota/Beulah", .str "America/North Dakota/Center", .str "America/North Dakota/New Salem", .str "America/Nuuk",
  .str "America/Ojinaga", .str "America/Panama", .str "America/Pangnirtung", .str "America/Paramaribo", .str "America/Phoenix",
  .str "America/Port of Spain", .str "America/Port-au-Prince", .str "America/Porto Velho", .str "America/Puerto Rico", .str "America/Punta Arenas",
  .str "America/Rainy River", .str "America/Rankin Inlet", .str "America/Recife", .str "America/Regina", .str "America/Resolute",
  .str "America/Rio Branco", .str "America/Santa Isabel", .str "America/Santarem", .str "America/Santiago", .str "America/Santo Domingo",
  .str "America/Sao Paulo", .str "America/Scoresbysund", .str "America/Sitka", .str "America/Shiprock", .str "America/St Barthelemy",
  .str "America/St Johns", .str "America/St Kitts", .str "America/St Lucia", .str "America/St Thomas", .str "America/St Vincent",
  .str "America/Swift Current", .str "America/Tegucigalpa", .str "America/Thule", .str "America/Thunder Bay", .str "America/Tijuana",
  .str "America/Toronto", .str "America/Tortola", .str "America/Vancouver", .str "America/Whitehorse", .str "America/Winnipeg",
  .str "America/Yakutat", .str "America/Yellowknife", .str "Antarctica/Casey", .str "Antarctica/Davis", .str "Antarctica/DumontDUrville",
  .str "Antarctica/Macquarie", .str "Antarctica/Mawson", .str "Antarctica/McMurdo", .str "Antarctica/Palmer", .str "Antarctica/Rothera",
  .str "Antarctica/South Pole", .str "Antarctica/Syowa", .str "Antarctica/Troll", .str "Antarctica/Vostok", .str "Arctic/Longyearbyen",
  .str "Asia/Aden", .str "Asia/Almaty", .str "Asia/Amman", .str "Asia/Anadyr", .str "Asia/Aqtau", .str "Asia/Aqtobe", .str "Asia/Ashgabat",
  .str "Asia/Atyrau", .str "Asia/Baghdad", .str "Asia/Bahrain", .str "Asia/Baku", .str "Asia/Bangkok", .str "Asia/Barnaul", .str "Asia/Beirut",
  .str "Asia/Bishkek", .str "Asia/Brunei", .str "Asia/Chita", .str "Asia/Choibalsan", .str "Asia/Chongqing", .str "Asia/Colombo",
  .str "Asia/Damascus", .str "Asia/Dhaka", .str "Asia/Dili", .str "Asia/Dubai", .str "Asia/Dushanbe", .str "Asia/Famagusta", .str "Asia/Gaza",
  .str "Asia/Harbin", .str "Asia/Hebron", .str "Asia/Ho Chi Minh", .str "Asia/Hong Kong", .str "Asia/Hovd", .str "Asia/Irkutsk", .str "Asia/Jakarta",
  .str "Asia/Jayapura", .str "Asia/Jerusalem", .str "Asia/Kabul", .str "Asia/Kamchatka", .str "Asia/Karachi", .str "Asia/Kashgar",
  .str "Asia/Kathmandu", .str "Asia/Khandyga", .str "Asia/Kolkata", .str "Asia/Krasnoyarsk", .str "Asia/Kuala Lumpur", .str "Asia/Kuching",
  .str "Asia/Kuwait", .str "Asia/Macau", .str "Asia/Magadan", .str "Asia/Makassar", .str "Asia/Manila", .str "Asia/Muscat", .str "Asia/Nicosia",
  .str "Asia/Novokuznetsk", .str "Asia/Novosibirsk", .str "Asia/Omsk", .str "Asia/Oral", .str "Asia/Phnom Penh", .str "Asia/Pontianak",
  .str "Asia/Pyongyang", .str "Asia/Qatar", .str "Asia/Qostanay", .str "Asia/Qyzylorda", .str "Asia/Rangoon", .str "Asia/Riyadh",
  .str "Asia/Sakhalin", .str "Asia/Samarkand", .str "Asia/Seoul", .str "Asia/Shanghai", .str "Asia/Singapore", .str "Asia/Srednekolymsk",
  .str "Asia/Taipei", .str "Asia/Tashkent", .str "Asia/Tbilisi", .str "Asia/Tehran", .str "Asia/Thimphu", .str "Asia/Tokyo", .str "Asia/Tomsk",
  .str "Asia/Ulaanbaatar", .str "Asia/Urumqi", .str "Asia/Ust-Nera", .str "Asia/Vientiane", .str "Asia/Vladivostok", .str "Asia/Yakutsk",
  .str "Asia/Yangon", .str "Asia/Yekaterinburg", .str "Asia/Yerevan", .str "Atlantic/Azores", .str "Atlantic/Bermuda", .str "Atlantic/Canary",
  .str "Atlantic/Cape Verde", .str "Atlantic/Faroe", .str "Atlantic/Madeira", .str "Atlantic/Reykjavik", .str "Atlantic/South Georgia",
  .str "Atlantic/St Helena", .str "Atlantic/Stanley", .str "Australia/Adelaide", .str "Australia/Brisbane", .str "Australia/Broken Hill",
  .str "Australia/Currie", .str "Australia/Darwin", .str "Australia/Eucla", .str "Australia/Hobart", .str "Australia/Lindeman",
  .str "Australia/Lord Howe", .str "Australia/Melbourne", .str "Australia/Perth", .str "Australia/Sydney", .str "Etc/GMT", .str "Etc/GMT+1",
  .str "Etc/GMT+10", .str "Etc/GMT+11", .str "Etc/GMT+12", .str "Etc/GMT+2", .str "Etc/GMT+3", .str "Etc/GMT+4", .str "Etc/GMT+5", .str "Etc/GMT+6",
  .str "Etc/GMT+7", .str "Etc/GMT+8", .str "Etc/GMT+9", .str "Etc/GMT-1", .str "Etc/GMT-10", .str "Etc/GMT-11", .str "Etc/GMT-12", .str "Etc/GMT-13",
  .str "Etc/GMT-14", .str "Etc/GMT-2", .str "Etc/GMT-3", .str "Etc/GMT-4", .str "Etc/GMT-5", .str "Etc/GMT-6", .str "Etc/GMT-7", .str "Etc/GMT-8",
  .str "Etc/GMT-9", .str "Europe/Amsterdam", .str "Europe/Andorra", .str "Europe/Astrakhan", .str "Europe/Athens", .str "Europe/Belgrade",
  .str "Europe/Berlin", .str "Europe/Bratislava", .str "Europe/Brussels", .str "Europe/Bucharest", .str "Europe/Budapest", .str "Europe/Busingen",
  .str "Europe/Chisinau", .str "Europe/Copenhagen", .str "Europe/Dublin", .str "Europe/Gibraltar", .str "Europe/Guernsey", .str "Europe/Helsinki",
  .str "Europe/Isle of Man", .str "Europe/Istanbul", .str "Europe/Jersey", .str "Europe/Kaliningrad", .str "Europe/Kiev", .str "Europe/Kirov",
  .str "Europe/Kyiv", .str "Europe/Lisbon", .str "Europe/Ljubljana", .str "Europe/London", .str "Europe/Luxembourg", .str "Europe/Madrid",
  .str "Europe/Malta", .str "Europe/Mariehamn", .str "Europe/Minsk", .str "Europe/Monaco", .str "Europe/Moscow", .str "Europe/Oslo",
  .str "Europe/Paris", .str "Europe/Podgorica", .str "Europe/Prague", .str "Europe/Riga", .str "Europe/Rome", .str "Europe/Samara",
  .str "Europe/San Marino", .str "Europe/Sarajevo", .str "Europe/Saratov", .str "Europe/Simferopol", .str "Europe/Skopje", .str "Europe/Sofia",
  .str "Europe/Stockholm", .str "Europe/Tallinn", .str "Europe/Tirane", .str "Europe/Ulyanovsk", .str "Europe/Uzhgorod", .str "Europe/Vaduz",
  .str "Europe/Vatican", .str "Europe/Vienna", .str "Europe/Vilnius", .str "Europe/Volgograd", .str "Europe/Warsaw", .str "Europe/Zagreb",
  .str "Europe/Zaporozhye", .str "Europe/Zurich", .str "Indian/Antananarivo", .str "Indian/Chagos", .str "Indian/Christmas", .str "Indian/Cocos",
  .str "Indian/Comoro", .str "Indian/Kerguelen", .str "Indian/Mahe", .str "Indian/Maldives", .str "Indian/Mauritius", .str "Indian/Mayotte",
  .str "Indian/Reunion", .str "Pacific/Apia", .str "Pacific/Auckland", .str "Pacific/Bougainville", .str "Pacific/Chatham", .str "Pacific/Chuuk",
  .str "Pacific/Easter", .str "Pacific/Efate", .str "Pacific/Enderbury", .str "Pacific/Fakaofo", .str "Pacific/Fiji", .str "Pacific/Funafuti",
  .str "Pacific/Galapagos", .str "Pacific/Gambier", .str "Pacific/Guadalcanal", .str "Pacific/Guam", .str "Pacific/Honolulu",
  .str "Pacific/Johnston", .str "Pacific/Kanton", .str "Pacific/Kiritimati", .str "Pacific/Kosrae", .str "Pacific/Kwajalein", .str "Pacific/Majuro",
  .str "Pacific/Marquesas", .str "Pacific/Midway", .str "Pacific/Nauru", .str "Pacific/Niue", .str "Pacific/Norfolk", .str "Pacific/Noumea",
  .str "Pacific/Pago Pago", .str "Pacific/Palau", .str "Pacific/Pitcairn", .str "Pacific/Pohnpei", .str "Pacific/Ponape",
  .str "Pacific/Port Moresby", .str "Pacific/Rarotonga", .str "Pacific/Saipan", .str "Pacific/Tahiti", .str "Pacific/Tarawa",
  .str "Pacific/Tongatapu", .str "Pacific/Truk", .str "Pacific/Wake", .str "Pacific/Wallis"])]), ("ula_prefix", .dict [("type", .str "string")]),
  ("maintainer", .dict [("type", .str "string")]), ("description", .dict [("type", .str "string")])])]

def owSchema_pro_interfaces : Val := .dict [("type", .str "array"), ("uniqueItems", .bool true), ("items", .dict [("oneOf", .list [.dict [("$ref",
  .str "#/definitions/network_interface")], .dict [("$ref", .str "#/definitions/wireless_interface")], .dict [("$ref",
  .str "#/definitions/bridge_interface")], .dict [("$ref", .str "#/definitions/dialup_interface")], .dict [("$ref",
  .str "#/definitions/modemmanager_interface")], .dict [("$ref", .str "#/definitions/vxlan_interface")], .dict [("$ref",
  .str "#/definitions/wireguard_interface")], .dict [("$ref", .str "#/definitions/vlan_8021q")], .dict [("$ref",
  .str "#/definitions/vlan_8021ad")]])])]

def owSchema_pro_radios : Val := .dict [("type", .str "array"), ("uniqueItems", .bool true), ("items", .dict [("oneOf", .list [.dict [("$ref",
  .str "#/definitions/radio_80211ax_2ghz_settings")], .dict [("$ref", .str "#/definitions/radio_80211gn_settings")], .dict [("$ref",
  .str "#/definitions/radio_80211bg_settings")], .dict [("$ref", .str "#/definitions/radio_80211ax_5ghz_settings")], .dict [("$ref",
  .str "#/definitions/radio_80211ac_5ghz_settings")], .dict [("$ref", .str "#/definitions/radio_80211an_settings")], .dict [("$ref",
  .str "#/definitions/radio_80211a_settings")], .dict [("$ref", .str "#/definitions/radio_80211ax_6ghz_settings")], .dict [("$ref",
  .str "#/definitions/radio_80211ad_60ghz_settings")]])])]

def owSchema_pro_dns_servers : Val := .dict [("type", .str "array"), ("uniqueItems", .bool true), ("items", .dict [("type", .str "string")])]

def owSchema_pro_dns_search : Val := .dict [("type", .str "array"), ("uniqueItems", .bool true), ("items", .dict [("type", .str "string"), ("format",
  .str "hostname")])]

def owSchema_pro_routes : Val := .dict [("type", .str "array"), ("uniqueItems", .bool true), ("items", .dict [("type", .str "object"), ("required",
  .list [.str "device", .str "destination", .str "next", .str "cost"]), ("properties", .dict [("device", .dict [("type", .str "string")]),
  ("destination", .dict [("type", .str "string")]), ("next", .dict [("type", .str "string")]), ("cost", .dict [("type", .str "integer")]), ("source",
  .dict [("type", .str "string")]), ("type", .dict [("type", .str "string"), ("enum", .list [.str "unicast", .str "local", .str "broadcast",
  .str "multicast", .str "unreachable", .str "prohibit", .str "blackhole", .str "anycast"])]), ("mtu", .dict [("type", .str "string"), ("pattern",
  .str "^[0-9]*$")]), ("table", .dict [("type", .str "string"), ("pattern", .str "^[0-9]*$")]), ("onlink", .dict [("type", .str "boolean")])])])]

def owSchema_pro_files : Val := .dict [("type", .str "array"), ("uniqueItems", .bool true), ("items", .dict [("type", .str "object"),
  ("additionalProperties", .bool false), ("required", .list [.str "path", .str "mode", .str "contents"]), ("properties", .dict [("path",
  .dict [("type", .str "string"), ("minLength", .int 2)]), ("mode", .dict [("type", .str "string"), ("maxLength", .int 4), ("minLength", .int 3),
  ("pattern", .str "^[0-7]*$")]), ("contents", .dict [("type", .str "string")])])])]

def owSchema_pro_ip_rules : Val := .dict [("type", .str "array"), ("uniqueItems", .bool true), ("items", .dict [("type", .str "object"),
  ("properties", .dict [("in", .dict [("type", .str "string")]), ("out", .dict [("type", .str "string")]), ("src", .dict [("type", .str "string"),
  ("format", .str "cidr")]), ("dest", .dict [("type", .str "string"), ("format", .str "cidr")]), ("tos", .dict [("type", .str "integer")]), ("mark",
  .dict [("type", .str "string")]), ("lookup", .dict [("type", .str "string")]), ("action", .dict [("type", .str "string"), ("enum",
  .list [.str "prohibit", .str "unreachable", .str "blackhole", .str "throw"])]), ("goto", .dict [("type", .str "integer")]), ("invert",
  .dict [("type", .str "boolean")])])])]

def owSchema_pro_ntp : Val := .dict [("type", .str "object"), ("properties", .dict [("enabled", .dict [("type", .str "boolean")]), ("enable_server",
  .dict [("type", .str "boolean")]), ("server", .dict [("type", .str "array"), ("uniqueItems", .bool true), ("items", .dict [("type", .str "string"),
  ("format", .str "hostname")])])])]

def owSchema_pro_switch : Val := .dict [("type", .str "array"), ("uniqueItems", .bool true), ("items", .dict [("type", .str "object"), ("required",
  .list [.str "name", .str "reset", .str "enable_vlan", .str "vlan"]), ("properties", .dict [("name", .dict [("type", .str "string")]), ("reset",
  .dict [("type", .str "boolean")]), ("enable_vlan", .dict [("type", .str "boolean")]), ("vlan", .dict [("type", .str "array"), ("uniqueItems",
  .bool true), ("items", .dict [("type", .str "object"), ("required", .list [.str "device", .str "vlan", .str "ports"]), ("properties",
  .dict [("device", .dict [("type", .str "string")]), ("vlan", .dict [("type", .str "integer")]), ("ports", .dict [("type",
  .str "string")])])])])])])]

def owSchema_pro_led : Val := .dict [("type", .str "array"), ("uniqueItems", .bool true), ("items", .dict [("type", .str "object"), ("required",
  .list [.str "name", .str "sysfs", .str "trigger"]), ("properties", .dict [("name", .dict [("type", .str "string")]), ("default", .dict [("type",
  .str "boolean")]), ("dev", .dict [("type", .str "string")]), ("sysfs", .dict [("type", .str "string")]), ("trigger", .dict [("type",
  .str "string")]), ("delayoff", .dict [("type", .str "integer")]), ("delayon", .dict [("type", .str "integer")]), ("interval", .dict [("type",
  .str "integer")]), ("message", .dict [("type", .str "string")]), ("mode", .dict [("type", .str "string")])])])]

def owSchema_pro_wireguard_peers : Val := .dict [("type", .str "array"), ("uniqueItems", .bool true), ("items", .dict [("type", .str "object"),
  ("required", .list [.str "interface", .str "public_key", .str "allowed_ips"]), ("properties", .dict [("interface", .dict [("type", .str "string"),
  ("minLength", .int 2), ("maxLength", .int 15), ("pattern", .str "^[^\\s]*$")]), ("public_key", .dict [("type", .str "string"), ("maxLength",
  .int 44), ("minLength", .int 1), ("pattern", .str "^[^\\s]*$")]), ("allowed_ips", .dict [("type", .str "array"), ("uniqueItems", .bool true),
  ("items", .dict [("type", .str "string"), ("minLength", .int 1)])]), ("endpoint_host", .dict [("type", .str "string")]), ("endpoint_port",
  .dict [("type", .str "integer"), ("maximum", .int 65535), ("minimum", .int 1)]), ("preshared_key", .dict [("type", .str "string"), ("maxLength",
  .int 44), ("pattern", .str "^[^\\s]*$")]), ("persistent_keepalive", .dict [("type", .str "integer")]), ("route_allowed_ips", .dict [("type",
  .str "boolean")])])])]

def owSchema_pro_zerotier : Val := .dict [("type", .str "array"), ("uniqueItems", .bool true), ("items", .dict [("type", .str "object"), ("required",
  .list [.str "name", .str "networks"]), ("properties", .dict [("disabled", .dict [("type", .str "boolean")]), ("name", .dict [("type",
  .str "string"), ("minLength", .int 1)]), ("networks", .dict [("type", .str "array"), ("uniqueItems", .bool true), ("items", .dict [("type",
  .str "object"), ("allOf", .list [.dict [("required", .list [.str "id", .str "ifname"])]]), ("properties", .dict [("id", .dict [("type",
  .str "string"), ("maxLength", .int 16), ("minLength", .int 16)]), ("ifname", .dict [("type", .str "string"), ("minLength", .int 1), ("maxLength",
  .int 10)]), ("allow_managed", .dict [("type", .str "boolean")]), ("allow_global", .dict [("type", .str "boolean")]), ("allow_default",
  .dict [("type", .str "boolean")]), ("allow_dns", .dict [("type", .str "boolean")])])])]), ("secret", .dict [("type", .str "string")]),
  ("config_path", .dict [("type", .str "string")]), ("copy_config_path", .dict [("type", .str "string"), ("enum", .list [.str "0", .str "1"])]),
  ("port", .dict [("type", .str "integer"), ("minimum", .int 1), ("maximum", .int 65535)]), ("local_conf_path", .dict [("type", .str "string")])])])]

def owSchema_pro_openvpn : Val := .dict [("type", .str "array"), ("uniqueItems", .bool true), ("items", .dict [("type", .str "object"), ("oneOf",
  .list [.dict [("$ref", .str "#/definitions/client")], .dict [("$ref", .str "#/definitions/server_manual")], .dict [("$ref",
  .str "#/definitions/server_bridged")], .dict [("$ref", .str "#/definitions/server_routed")]])])]

def owSchema_properties : VDict := [("general", owSchema_pro_general), ("interfaces", owSchema_pro_interfaces), ("radios", owSchema_pro_radios),
  ("dns_servers", owSchema_pro_dns_servers), ("dns_search", owSchema_pro_dns_search), ("routes", owSchema_pro_routes), ("files", owSchema_pro_files),
  ("ip_rules", owSchema_pro_ip_rules), ("ntp", owSchema_pro_ntp), ("switch", owSchema_pro_switch), ("led", owSchema_pro_led), ("wireguard_peers",
  owSchema_pro_wireguard_peers), ("zerotier", owSchema_pro_zerotier), ("openvpn", owSchema_pro_openvpn)]

/-- openwrt/schema.py: the schema of the OpenWrt backend -/
def owSchema : VDict := [("type", .str "object"), ("definitions", .dict owSchema_definitions), ("properties", .dict owSchema_properties)]

/-- timezones.py -/
def timezones : Dict String String := [("UTC", "UTC"), ("Africa/Abidjan", "GMT0"), ("Africa/Accra", "GMT0"), ("Africa/Addis Ababa", "EAT-3"),
  ("Africa/Algiers", "CET-1"), ("Africa/Asmara", "EAT-3"), ("Africa/Bamako", "GMT0"), ("Africa/Bangui", "WAT-1"), ("Africa/Banjul", "GMT0"),
  ("Africa/Bissau", "GMT0"), ("Africa/Blantyre", "CAT-2"), ("Africa/Brazzaville", "WAT-1"), ("Africa/Bujumbura", "CAT-2"), ("Africa/Cairo", "EET-2"),
  ("Africa/Casablanca", "WET0"), ("Africa/Ceuta", "CET-1CEST,M3.5.0,M10.5.0/3"), ("Africa/Conakry", "GMT0"), ("Africa/Dakar", "GMT0"),
  ("Africa/Dar es Salaam", "EAT-3"), ("Africa/Djibouti", "EAT-3"), ("Africa/Douala", "WAT-1"), ("Africa/El Aaiun", "WET0"), ("Africa/Freetown",
  "GMT0"), ("Africa/Gaborone", "CAT-2"), ("Africa/Harare", "CAT-2"), ("Africa/Johannesburg", "SAST-2"), ("Africa/Juba", "CAT-2"), ("Africa/Kampala",
  "EAT-3"), ("Africa/Khartoum", "EAT-3"), ("Africa/Kigali", "CAT-2"), ("Africa/Kinshasa", "WAT-1"), ("Africa/Lagos", "WAT-1"), ("Africa/Libreville",
  "WAT-1"), ("Africa/Lome", "GMT0"), ("Africa/Luanda", "WAT-1"), ("Africa/Lubumbashi", "CAT-2"), ("Africa/Lusaka", "CAT-2"), ("Africa/Malabo",
  "WAT-1"), ("Africa/Maputo", "CAT-2"), ("Africa/Maseru", "SAST-2"), ("Africa/Mbabane", "SAST-2"), ("Africa/Mogadishu", "EAT-3"), ("Africa/Monrovia",
  "GMT0"), ("Africa/Nairobi", "EAT-3"), ("Africa/Ndjamena", "WAT-1"), ("Africa/Niamey", "WAT-1"), ("Africa/Nouakchott", "GMT0"),
  ("Africa/Ouagadougou", "GMT0"), ("Africa/Porto-Novo", "WAT-1"), ("Africa/Sao Tome", "GMT0"), ("Africa/Tripoli", "EET-2"), ("Africa/Tunis",
  "CET-1"), ("Africa/Windhoek", "WAT-1WAST,M9.1.0,M4.1.0"), ("America/Adak", "HAST10HADT,M3.2.0,M11.1.0"), ("America/Anchorage",
  "AKST9AKDT,M3.2.0,M11.1.0"), ("America/Anguilla", "AST4"), ("America/Antigua", "AST4"), ("America/Araguaina", "BRT3"),
  ("America/Argentina/Buenos Aires", "ART3"), ("America/Argentina/Catamarca", "ART3"), ("America/Argentina/Cordoba", "ART3"),
  ("America/Argentina/Jujuy", "ART3"), ("America/Argentina/La Rioja", "ART3"), ("America/Argentina/Mendoza", "ART3"),
  ("America/Argentina/Rio Gallegos", "ART3"), ("America/Argentina/Salta", "ART3"), ("America/Argentina/San Juan", "ART3"),
  ("America/Argentina/San Luis", "<-03>3"), ("America/Argentina/Tucuman", "ART3"), ("America/Argentina/Ushuaia", "ART3"), ("America/Aruba", "AST4"),
  ("America/Asuncion", "PYT4PYST,M10.1.0/0,M4.2.0/0"), ("America/Atikokan", "EST5"), ("America/Bahia", "BRT3"), ("America/Bahia Banderas",
  "CST6CDT,M4.1.0,M10.5.0"), ("America/Barbados", "AST4"), ("America/Belem", "BRT3"), ("America/Belize", "CST6"), ("America/Blanc-Sablon", "AST4"),
  ("America/Boa Vista", "AMT4"), ("America/Bogota", "COT5"), ("America/Boise", "MST7MDT,M3.2.0,M11.1.0"), ("America/Cambridge Bay",
  "MST7MDT,M3.2.0,M11.1.0"), ("America/Campo Grande", "AMT4AMST,M10.3.0/0,M2.3.0/0"), ("America/Cancun", "CST6CDT,M4.1.0,M10.5.0"),
  ("America/Caracas", "VET4:30"), ("America/Cayenne", "GFT3"), ("America/Cayman", "EST5"), ("America/Chicago", "CST6CDT,M3.2.0,M11.1.0"),
  ("America/Chihuahua", "MST7MDT,M4.1.0,M10.5.0"), ("America/Costa Rica", "CST6"), ("America/Creston", "MST7"), ("America/Cuiaba",
  "AMT4AMST,M10.3.0/0,M2.3.0/0"), ("America/Curacao", "AST4"), ("America/Danmarkshavn", "GMT0"), ("America/Dawson", "PST8PDT,M3.2.0,M11.1.0"),
  ("America/Dawson Creek", "MST7"), ("America/Denver", "MST7MDT,M3.2.0,M11.1.0"), ("America/Detroit", "EST5EDT,M3.2.0,M11.1.0"), ("America/Dominica",
  "AST4"), ("America/Edmonton", "MST7MDT,M3.2.0,M11.1.0"), ("America/Eirunepe", "AMT4"), ("America/El Salvador", "CST6"), ("America/Fort Nelson",
  "MST7"), ("America/Fortaleza", "BRT3"), ("America/Glace Bay", "AST4ADT,M3.2.0,M11.1.0"), ("America/Goose Bay", "AST4ADT,M3.2.0/0:01,M11.1.0/0:01"),
  ("America/Grand Turk", "EST5EDT,M3.2.0,M11.1.0"), ("America/Grenada", "AST4"), ("America/Guadeloupe", "AST4"), ("America/Guatemala", "CST6"),
  ("America/Guayaquil", "ECT5"), ("America/Guyana", "GYT4"), ("America/Halifax", "AST4ADT,M3.2.0,M11.1.0"), ("America/Havana",
  "CST5CDT,M3.2.0/0,M10.5.0/1"), ("America/Hermosillo", "MST7"), ("America/Indiana/Indianapolis", "EST5EDT,M3.2.0,M11.1.0"), ("America/Indiana/Knox",
  "CST6CDT,M3.2.0,M11.1.0"), ("America/Indiana/Marengo", "EST5EDT,M3.2.0,M11.1.0"), ("America/Indiana/Petersburg", "EST5EDT,M3.2.0,M11.1.0"),
  ("America/Indiana/Tell City", "CST6CDT,M3.2.0,M11.1.0"), ("America/Indiana/Vevay", "EST5EDT,M3.2.0,M11.1.0"), ("America/Indiana/Vincennes",
  "EST5EDT,M3.2.0,M11.1.0"), ("America/Indiana/Winamac", "EST5EDT,M3.2.0,M11.1.0"), ("America/Inuvik", "MST7MDT,M3.2.0,M11.1.0"), ("America/Iqaluit",
  "EST5EDT,M3.2.0,M11.1.0"), ("America/Jamaica", "EST5"), ("America/Juneau", "AKST9AKDT,M3.2.0,M11.1.0"), ("America/Kentucky/Louisville",
  "EST5EDT,M3.2.0,M11.1.0"), ("America/Kentucky/Monticello", "EST5EDT,M3.2.0,M11.1.0"), ("America/Kralendijk", "AST4"), ("America/La Paz", "BOT4"),
  ("America/Lima", "PET5"), ("America/Los Angeles", "PST8PDT,M3.2.0,M11.1.0"), ("America/Lower Princes", "AST4"), ("America/Maceio", "BRT3"),
  ("America/Managua", "CST6"), ("America/Manaus", "AMT4"), ("America/Marigot", "AST4"), ("America/Martinique", "AST4"), ("America/Matamoros",
  "CST6CDT,M3.2.0,M11.1.0"), ("America/Mazatlan", "MST7MDT,M4.1.0,M10.5.0"), ("America/Menominee", "CST6CDT,M3.2.0,M11.1.0"), ("America/Merida",
  "CST6CDT,M4.1.0,M10.5.0"), ("America/Metlakatla", "AKST9AKDT,M3.2.0,M11.1.0"), ("America/Mexico City", "CST6CDT,M4.1.0,M10.5.0"),
  ("America/Miquelon", "PMST3PMDT,M3.2.0,M11.1.0"), ("America/Moncton", "AST4ADT,M3.2.0,M11.1.0"), ("America/Monterrey", "CST6CDT,M4.1.0,M10.5.0"),
  ("America/Montevideo", "UYT3UYST,M10.1.0,M3.2.0"), ("America/Montreal", "EST5EDT,M3.2.0,M11.1.0"), ("America/Montserrat", "AST4"),
  ("America/Nassau", "EST5EDT,M3.2.0,M11.1.0"), ("America/New York", "EST5EDT,M3.2.0,M11.1.0"), ("America/Nipigon", "EST5EDT,M3.2.0,M11.1.0"),
  ("America/Nome", "AKST9AKDT,M3.2.0,M11.1.0"), ("America/Noronha", "FNT2"), ("America/North Dakota/Beulah", "CST6CDT,M3.2.0,M11.1.0"),
  ("America/North Dakota/Center", "CST6CDT,M3.2.0,M11.1.0"), ("America/North Dakota/New Salem", "CST6CDT,M3.2.0,M11.1.0"), ("America/Nuuk",
  "<-03>3<-02>,M3.5.0/-2,M10.5.0/-1"), ("America/Ojinaga", "MST7MDT,M3.2.0,M11.1.0"), ("America/Panama", "EST5"), ("America/Pangnirtung",
  "EST5EDT,M3.2.0,M11.1.0"), ("America/Paramaribo", "SRT3"), ("America/Phoenix", "MST7"), ("America/Port of Spain", "AST4"),
  ("America/Port-au-Prince", "EST5"), ("America/Porto Velho", "AMT4"), ("America/Puerto Rico", "AST4"), ("America/Punta Arenas", "<-03>3"),
  ("America/Rainy River", "CST6CDT,M3.2.0,M11.1.0"), ("America/Rankin Inlet", "CST6CDT,M3.2.0,M11.1.0"), ("America/Recife", "BRT3"),
  ("America/Regina", "CST6"), ("America/Resolute", "CST6CDT,M3.2.0,M11.1.0"), ("America/Rio Branco", "AMT4"), ("America/Santa Isabel",
  "PST8PDT,M4.1.0,M10.5.0"), ("America/Santarem", "BRT3"), ("America/Santiago", "<-04>4<-03>,M9.1.6/24,M4.1.6/24"), ("America/Santo Domingo",
  "AST4"), ("America/Sao Paulo", "BRT3BRST,M10.3.0/0,M2.3.0/0"), ("America/Scoresbysund", "EGT1EGST,M3.5.0/0,M10.5.0/1"), ("America/Sitka",
  "AKST9AKDT,M3.2.0,M11.1.0"), ("America/Shiprock", "MST7MDT,M3.2.0,M11.1.0"), ("America/St Barthelemy", "AST4"), ("America/St Johns",
  "NST3:30NDT,M3.2.0/0:01,M11.1.0/0:01"), ("America/St Kitts", "AST4"), ("America/St Lucia", "AST4"), ("America/St Thomas", "AST4"),
  ("America/St Vincent", "AST4"), ("America/Swift Current", "CST6"), ("America/Tegucigalpa", "CST6"), ("America/Thule", "AST4ADT,M3.2.0,M11.1.0"),
  ("America/Thunder Bay", "EST5EDT,M3.2.0,M11.1.0"), ("America/Tijuana", "PST8PDT,M3.2.0,M11.1.0"), ("America/Toronto", "EST5EDT,M3.2.0,M11.1.0"),
  ("America/Tortola", "AST4"), ("America/Vancouver", "PST8PDT,M3.2.0,M11.1.0"), ("America/Whitehorse", "PST8PDT,M3.2.0,M11.1.0"),
  ("America/Winnipeg", "CST6CDT,M3.2.0,M11.1.0"), ("America/Yakutat", "AKST9AKDT,M3.2.0,M11.1.0"), ("America/Yellowknife", "MST7MDT,M3.2.0,M11.1.0"),
  ("Antarctica/Casey", "WST-8"), ("Antarctica/Davis", "DAVT-7"), ("Antarctica/DumontDUrville", "DDUT-10"), ("Antarctica/Macquarie", "MIST-11"),
  ("Antarctica/Mawson", "MAWT-5"), ("Antarctica/McMurdo", "NZST-12NZDT,M9.5.0,M4.1.0/3"), ("Antarctica/Palmer", "<-03>3"), ("Antarctica/Rothera",
  "ROTT3"), ("Antarctica/South Pole", "NZST-12NZDT,M9.5.0,M4.1.0/3"), ("Antarctica/Syowa", "SYOT-3"), ("Antarctica/Troll",
  "<+00>0<+02>-2,M3.5.0/1,M10.5.0/3"), ("Antarctica/Vostok", "VOST-6"), ("Arctic/Longyearbyen", "CET-1CEST,M3.5.0,M10.5.0/3"), ("Asia/Aden",
  "AST-3"), ("Asia/Almaty", "ALMT-6"), ("Asia/Amman", "<+03>-3"), ("Asia/Anadyr", "ANAT-11ANAST,M3.5.0,M10.5.0/3"), ("Asia/Aqtau", "AQTT-5"),
  ("Asia/Aqtobe", "AQTT-5"), ("Asia/Ashgabat", "TMT-5"), ("Asia/Atyrau", "<+05>-5"), ("Asia/Baghdad", "AST-3"), ("Asia/Bahrain", "AST-3"),
  ("Asia/Baku", "AZT-4AZST,M3.5.0/4,M10.5.0/5"), ("Asia/Bangkok", "ICT-7"), ("Asia/Barnaul", "<+07>-7"), ("Asia/Beirut",
  "EET-2EEST,M3.5.0/0,M10.5.0/0"), ("Asia/Bishkek", "KGT-6"), ("Asia/Brunei", "BNT-8"), ("Asia/Chita", "<+09>-9"), ("Asia/Choibalsan", "CHOT-8"),
  ("Asia/Chongqing", "CST-8"), ("Asia/Colombo", "IST-5:30"), ("Asia/Damascus", "EET-2EEST,M4.1.5/0,M10.5.5/0"), ("Asia/Dhaka", "BDT-6"),
  ("Asia/Dili", "TLT-9"), ("Asia/Dubai", "GST-4"), ("Asia/Dushanbe", "TJT-5"), ("Asia/Famagusta", "EET-2EEST,M3.5.0/3,M10.5.0/4"), ("Asia/Gaza",
  "EET-2EEST,M3.5.6/0:01,M9.1.5"), ("Asia/Harbin", "CST-8"), ("Asia/Hebron", "EET-2EEST,M3.4.4/50,M10.4.4/50"), ("Asia/Ho Chi Minh", "ICT-7"),
  ("Asia/Hong Kong", "HKT-8"), ("Asia/Hovd", "HOVT-7"), ("Asia/Irkutsk", "IRKT-8IRKST,M3.5.0,M10.5.0/3"), ("Asia/Jakarta", "WIT-7"),
  ("Asia/Jayapura", "EIT-9"), ("Asia/Jerusalem", "IST-2IDT,M3.4.4/26,M10.5.0"), ("Asia/Kabul", "AFT-4:30"), ("Asia/Kamchatka",
  "PETT-11PETST,M3.5.0,M10.5.0/3"), ("Asia/Karachi", "PKT-5"), ("Asia/Kashgar", "CST-8"), ("Asia/Kathmandu", "NPT-5:45"), ("Asia/Khandyga",
  "<+09>-9"), ("Asia/Kolkata", "IST-5:30"), ("Asia/Krasnoyarsk", "KRAT-7KRAST,M3.5.0,M10.5.0/3"), ("Asia/Kuala Lumpur", "MYT-8"), ("Asia/Kuching",
  "MYT-8"), ("Asia/Kuwait", "AST-3"), ("Asia/Macau", "CST-8"), ("Asia/Magadan", "MAGT-11MAGST,M3.5.0,M10.5.0/3"), ("Asia/Makassar", "CIT-8"),
  ("Asia/Manila", "PHT-8"), ("Asia/Muscat", "GST-4"), ("Asia/Nicosia", "EET-2EEST,M3.5.0/3,M10.5.0/4"), ("Asia/Novokuznetsk",
  "NOVT-6NOVST,M3.5.0,M10.5.0/3"), ("Asia/Novosibirsk", "NOVT-6NOVST,M3.5.0,M10.5.0/3"), ("Asia/Omsk", "OMST-7"), ("Asia/Oral", "ORAT-5"),
  ("Asia/Phnom Penh", "ICT-7"), ("Asia/Pontianak", "WIT-7"), ("Asia/Pyongyang", "KST-9"), ("Asia/Qatar", "AST-3"), ("Asia/Qostanay", "<+06>-6"),
  ("Asia/Qyzylorda", "QYZT-6"), ("Asia/Rangoon", "MMT-6:30"), ("Asia/Riyadh", "AST-3"), ("Asia/Sakhalin", "SAKT-10SAKST,M3.5.0,M10.5.0/3"),
  ("Asia/Samarkand", "UZT-5"), ("Asia/Seoul", "KST-9"), ("Asia/Shanghai", "CST-8"), ("Asia/Singapore", "SGT-8"), ("Asia/Srednekolymsk", "<+11>-11"),
  ("Asia/Taipei", "CST-8"), ("Asia/Tashkent", "UZT-5"), ("Asia/Tbilisi", "GET-4"), ("Asia/Tehran", "IRST-3:30IRDT,80/0,264/0"), ("Asia/Thimphu",
  "BTT-6"), ("Asia/Tokyo", "JST-9"), ("Asia/Tomsk", "<+07>-7"), ("Asia/Ulaanbaatar", "ULAT-8"), ("Asia/Urumqi", "CST-8"), ("Asia/Ust-Nera",
  "<+10>-10"), ("Asia/Vientiane", "ICT-7"), ("Asia/Vladivostok", "VLAT-10VLAST,M3.5.0,M10.5.0/3"), ("Asia/Yakutsk", "YAKT-9YAKST,M3.5.0,M10.5.0/3"),
  ("Asia/Yangon", "<+0630>-6:30"), ("Asia/Yekaterinburg", "YEKT-5YEKST,M3.5.0,M10.5.0/3"), ("Asia/Yerevan", "AMT-4AMST,M3.5.0,M10.5.0/3"),
  ("Atlantic/Azores", "AZOT1AZOST,M3.5.0/0,M10.5.0/1"), ("Atlantic/Bermuda", "AST4ADT,M3.2.0,M11.1.0"), ("Atlantic/Canary",
  "WET0WEST,M3.5.0/1,M10.5.0"), ("Atlantic/Cape Verde", "CVT1"), ("Atlantic/Faroe", "WET0WEST,M3.5.0/1,M10.5.0"), ("Atlantic/Madeira",
  "WET0WEST,M3.5.0/1,M10.5.0"), ("Atlantic/Reykjavik", "GMT0"), ("Atlantic/South Georgia", "GST2"), ("Atlantic/St Helena", "GMT0"),
  ("Atlantic/Stanley", "FKT4FKST,M9.1.0,M4.3.0"), ("Australia/Adelaide", "CST-9:30CST,M10.1.0,M4.1.0/3"), ("Australia/Brisbane", "EST-10"),
  ("Australia/Broken Hill", "CST-9:30CST,M10.1.0,M4.1.0/3"), ("Australia/Currie", "EST-10EST,M10.1.0,M4.1.0/3"), ("Australia/Darwin", "CST-9:30"),
  ("Australia/Eucla", "CWST-8:45"), ("Australia/Hobart", "EST-10EST,M10.1.0,M4.1.0/3"), ("Australia/Lindeman", "EST-10"), ("Australia/Lord Howe",
  "LHST-10:30LHST-11,M10.1.0,M4.1.0"), ("Australia/Melbourne", "EST-10EST,M10.1.0,M4.1.0/3"), ("Australia/Perth", "WST-8"), ("Australia/Sydney",
  "EST-10EST,M10.1.0,M4.1.0/3"), ("Etc/GMT", "GMT0"), ("Etc/GMT+1", "<-01>1"), ("Etc/GMT+10", "<-10>10"), ("Etc/GMT+11", "<-11>11"), ("Etc/GMT+12",
  "<-12>12"), ("Etc/GMT+2", "<-02>2"), ("Etc/GMT+3", "<-03>3"), ("Etc/GMT+4", "<-04>4"), ("Etc/GMT+5", "<-05>5"), ("Etc/GMT+6", "<-06>6"),
  ("Etc/GMT+7", "<-07>7"), ("Etc/GMT+8", "<-08>8"), ("Etc/GMT+9", "<-09>9"), ("Etc/GMT-1", "<+01>-1"), ("Etc/GMT-10", "<+10>-10"), ("Etc/GMT-11",
  "<+11>-11"), ("Etc/GMT-12", "<+12>-12"), ("Etc/GMT-13", "<+13>-13"), ("Etc/GMT-14", "<+14>-14"), ("Etc/GMT-2", "<+02>-2"), ("Etc/GMT-3",
  "<+03>-3"), ("Etc/GMT-4", "<+04>-4"), ("Etc/GMT-5", "<+05>-5"), ("Etc/GMT-6", "<+06>-6"), ("Etc/GMT-7", "<+07>-7"), ("Etc/GMT-8", "<+08>-8"),
  ("Etc/GMT-9", "<+09>-9"), ("Europe/Amsterdam", "CET-1CEST,M3.5.0,M10.5.0/3"), ("Europe/Andorra", "CET-1CEST,M3.5.0,M10.5.0/3"),
  ("Europe/Astrakhan", "<+04>-4"), ("Europe/Athens", "EET-2EEST,M3.5.0/3,M10.5.0/4"), ("Europe/Belgrade", "CET-1CEST,M3.5.0,M10.5.0/3"),
  ("Europe/Berlin", "CET-1CEST,M3.5.0,M10.5.0/3"), ("Europe/Bratislava", "CET-1CEST,M3.5.0,M10.5.0/3"), ("Europe/Brussels",
  "CET-1CEST,M3.5.0,M10.5.0/3"), ("Europe/Bucharest", "EET-2EEST,M3.5.0/3,M10.5.0/4"), ("Europe/Budapest", "CET-1CEST,M3.5.0,M10.5.0/3"),
  ("Europe/Busingen", "CET-1CEST,M3.5.0,M10.5.0/3"), ("Europe/Chisinau", "EET-2EEST,M3.5.0/3,M10.5.0/4"), ("Europe/Copenhagen",
  "CET-1CEST,M3.5.0,M10.5.0/3"), ("Europe/Dublin", "GMT0IST,M3.5.0/1,M10.5.0"), ("Europe/Gibraltar", "CET-1CEST,M3.5.0,M10.5.0/3"),
  ("Europe/Guernsey", "GMT0BST,M3.5.0/1,M10.5.0"), ("Europe/Helsinki", "EET-2EEST,M3.5.0/3,M10.5.0/4"), ("Europe/Isle of Man",
  "GMT0BST,M3.5.0/1,M10.5.0"), ("Europe/Istanbul", "EET-2EEST,M3.5.0/3,M10.5.0/4"), ("Europe/Jersey", "GMT0BST,M3.5.0/1,M10.5.0"),
  ("Europe/Kaliningrad", "EET-2EEST,M3.5.0,M10.5.0/3"), ("Europe/Kiev", "EET-2EEST,M3.5.0/3,M10.5.0/4"), ("Europe/Kirov", "<+03>-3"), ("Europe/Kyiv",
  "EET-2EEST,M3.5.0/3,M10.5.0/4"), ("Europe/Lisbon", "WET0WEST,M3.5.0/1,M10.5.0"), ("Europe/Ljubljana", "CET-1CEST,M3.5.0,M10.5.0/3"),
  ("Europe/London", "GMT0BST,M3.5.0/1,M10.5.0"), ("Europe/Luxembourg", "CET-1CEST,M3.5.0,M10.5.0/3"), ("Europe/Madrid",
  "CET-1CEST,M3.5.0,M10.5.0/3"), ("Europe/Malta", "CET-1CEST,M3.5.0,M10.5.0/3"), ("Europe/Mariehamn", "EET-2EEST,M3.5.0/3,M10.5.0/4"),
  ("Europe/Minsk", "EET-2EEST,M3.5.0,M10.5.0/3"), ("Europe/Monaco", "CET-1CEST,M3.5.0,M10.5.0/3"), ("Europe/Moscow", "MSK-4"), ("Europe/Oslo",
  "CET-1CEST,M3.5.0,M10.5.0/3"), ("Europe/Paris", "CET-1CEST,M3.5.0,M10.5.0/3"), ("Europe/Podgorica", "CET-1CEST,M3.5.0,M10.5.0/3"),
  ("Europe/Prague", "CET-1CEST,M3.5.0,M10.5.0/3"), ("Europe/Riga", "EET-2EEST,M3.5.0/3,M10.5.0/4"), ("Europe/Rome", "CET-1CEST,M3.5.0,M10.5.0/3"),
  ("Europe/Samara", "SAMT-3SAMST,M3.5.0,M10.5.0/3"), ("Europe/San Marino", "CET-1CEST,M3.5.0,M10.5.0/3"), ("Europe/Sarajevo",
  "CET-1CEST,M3.5.0,M10.5.0/3"), ("Europe/Saratov", "<+04>-4"), ("Europe/Simferopol", "EET-2EEST,M3.5.0/3,M10.5.0/4"), ("Europe/Skopje",
  "CET-1CEST,M3.5.0,M10.5.0/3"), ("Europe/Sofia", "EET-2EEST,M3.5.0/3,M10.5.0/4"), ("Europe/Stockholm", "CET-1CEST,M3.5.0,M10.5.0/3"),
  ("Europe/Tallinn", "EET-2EEST,M3.5.0/3,M10.5.0/4"), ("Europe/Tirane", "CET-1CEST,M3.5.0,M10.5.0/3"), ("Europe/Ulyanovsk", "<+04>-4"),
  ("Europe/Uzhgorod", "EET-2EEST,M3.5.0/3,M10.5.0/4"), ("Europe/Vaduz", "CET-1CEST,M3.5.0,M10.5.0/3"), ("Europe/Vatican",
  "CET-1CEST,M3.5.0,M10.5.0/3"), ("Europe/Vienna", "CET-1CEST,M3.5.0,M10.5.0/3"), ("Europe/Vilnius", "EET-2EEST,M3.5.0/3,M10.5.0/4"),
  ("Europe/Volgograd", "VOLT-3VOLST,M3.5.0,M10.5.0/3"), ("Europe/Warsaw", "CET-1CEST,M3.5.0,M10.5.0/3"), ("Europe/Zagreb",
  "CET-1CEST,M3.5.0,M10.5.0/3"), ("Europe/Zaporozhye", "EET-2EEST,M3.5.0/3,M10.5.0/4"), ("Europe/Zurich", "CET-1CEST,M3.5.0,M10.5.0/3"),
  ("Indian/Antananarivo", "EAT-3"), ("Indian/Chagos", "IOT-6"), ("Indian/Christmas", "CXT-7"), ("Indian/Cocos", "CCT-6:30"), ("Indian/Comoro",
  "EAT-3"), ("Indian/Kerguelen", "TFT-5"), ("Indian/Mahe", "SCT-4"), ("Indian/Maldives", "MVT-5"), ("Indian/Mauritius", "MUT-4"), ("Indian/Mayotte",
  "EAT-3"), ("Indian/Reunion", "RET-4"), ("Pacific/Apia", "WST11"), ("Pacific/Auckland", "NZST-12NZDT,M9.5.0,M4.1.0/3"), ("Pacific/Bougainville",
  "<+11>-11"), ("Pacific/Chatham", "CHAST-12:45CHADT,M9.5.0/2:45,M4.1.0/3:45"), ("Pacific/Chuuk", "<+10>-10"), ("Pacific/Easter",
  "<-06>6<-05>,M9.1.6/22,M4.1.6/22"), ("Pacific/Efate", "VUT-11"), ("Pacific/Enderbury", "PHOT-13"), ("Pacific/Fakaofo", "TKT10"), ("Pacific/Fiji",
  "FJT-12"), ("Pacific/Funafuti", "TVT-12"), ("Pacific/Galapagos", "GALT6"), ("Pacific/Gambier", "GAMT9"), ("Pacific/Guadalcanal", "SBT-11"),
  ("Pacific/Guam", "ChST-10"), ("Pacific/Honolulu", "HST10"), ("Pacific/Johnston", "HST10"), ("Pacific/Kanton", "<+13>-13"), ("Pacific/Kiritimati",
  "LINT-14"), ("Pacific/Kosrae", "KOST-11"), ("Pacific/Kwajalein", "MHT-12"), ("Pacific/Majuro", "MHT-12"), ("Pacific/Marquesas", "MART9:30"),
  ("Pacific/Midway", "SST11"), ("Pacific/Nauru", "NRT-12"), ("Pacific/Niue", "NUT11"), ("Pacific/Norfolk", "NFT-11:30"), ("Pacific/Noumea",
  "NCT-11"), ("Pacific/Pago Pago", "SST11"), ("Pacific/Palau", "PWT-9"), ("Pacific/Pitcairn", "PST8"), ("Pacific/Pohnpei", "<+11>-11"),
  ("Pacific/Ponape", "PONT-11"), ("Pacific/Port Moresby", "PGT-10"), ("Pacific/Rarotonga", "CKT10"), ("Pacific/Saipan", "ChST-10"),
  ("Pacific/Tahiti", "TAHT10"), ("Pacific/Tarawa", "GILT-12"), ("Pacific/Tongatapu", "TOT-13"), ("Pacific/Truk", "TRUT-10"), ("Pacific/Wake",
  "WAKT-12"), ("Pacific/Wallis", "WFT-12")]

end NJ

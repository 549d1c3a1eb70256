import Verif.SchemaData

/-!
# The JSON schemas of the other backends as data

Made by tools/schema_gen.py, as SchemaData.lean. Parts that are equal to parts of other schemas are written once.
-/

namespace NJ

def openvpnSchema_definitions : VDict := [("tunnel", vpnSchema_def_tunnel), ("client", owSchema_def_client), ("server", owSchema_def_server),
  ("server_manual", owSchema_def_server_manual), ("server_bridged", owSchema_def_server_bridged), ("server_routed", owSchema_def_server_routed)]

def openvpnSchema_properties : VDict := [("openvpn", owSchema_pro_openvpn), ("files", owSchema_pro_files)]

/-- openvpn/schema.py: the schema of the OpenVPN backend -/
def openvpnSchema : VDict := [("type", .str "object"), ("definitions", .dict openvpnSchema_definitions), ("properties",
  .dict openvpnSchema_properties)]

def wireguardSchema_pro_wireguard : Val := .dict [("type", .str "array"), ("uniqueItems", .bool true), ("items", .dict [("type", .str "object"),
  ("required", .list [.str "name", .str "port", .str "private_key"]), ("properties", .dict [("name", .dict [("type", .str "string"), ("minLength",
  .int 2), ("maxLength", .int 15), ("pattern", .str "^[^\\s]*$")]), ("port", .dict [("type", .str "integer"), ("maximum", .int 65535), ("minimum",
  .int 1)]), ("private_key", .dict [("type", .str "string"), ("maxLength", .int 44), ("pattern", .str "^[^\\s]*$")]), ("dns", .dict [("type",
  .str "array"), ("uniqueItems", .bool true), ("items", .dict [("type", .str "string")])]), ("mtu", .dict [("type", .str "integer"), ("minimum",
  .int 68)]), ("table", .dict [("type", .str "string")]), ("pre_up", .dict [("type", .str "string")]), ("post_up", .dict [("type", .str "string")]),
  ("pre_down", .dict [("type", .str "string")]), ("post_down", .dict [("type", .str "string")]), ("save_config", .dict [("type", .str "boolean")]),
  ("peers", .dict [("type", .str "array"), ("uniqueItems", .bool true), ("items", .dict [("type", .str "object"), ("required",
  .list [.str "public_key", .str "allowed_ips"]), ("properties", .dict [("public_key", .dict [("type", .str "string"), ("maxLength", .int 44),
  ("minLength", .int 1), ("pattern", .str "^[^\\s]*$")]), ("allowed_ips", .dict [("type", .str "string"), ("minLength", .int 1)]), ("endpoint_host",
  .dict [("type", .str "string")]), ("endpoint_port", .dict [("type", .str "integer"), ("maximum", .int 65535), ("minimum", .int 1)]),
  ("preshared_key", .dict [("type", .str "string"), ("maxLength", .int 44), ("pattern", .str "^[^\\s]*$")])])])])])])]

def wireguardSchema_properties : VDict := [("wireguard", wireguardSchema_pro_wireguard), ("files", owSchema_pro_files)]

/-- wireguard/schema.py: the schema of the WireGuard backend -/
def wireguardSchema : VDict := [("type", .str "object"), ("properties", .dict wireguardSchema_properties), ("required", .list [.str "wireguard"])]

def vxlanSchema_pro_vxlan : Val := .dict [("type", .str "array"), ("uniqueItems", .bool true), ("items", .dict [("type", .str "object"),
  ("properties", .dict [("name", .dict [("type", .str "string"), ("minLength", .int 2), ("maxLength", .int 15), ("pattern", .str "^[^\\s]*$")]),
  ("vni", .dict [("oneOf", .list [.dict [("type", .str "string"), ("enum", .list [.str ""])], .dict [("type", .str "integer"), ("minimum", .int 0),
  ("maximum", .int 16777216)]])])])])]

def vxlanSchema_properties : VDict := [("wireguard", wireguardSchema_pro_wireguard), ("files", owSchema_pro_files), ("vxlan", vxlanSchema_pro_vxlan)]

/-- vxlan/schema.py: the schema of the VXLAN over WireGuard backend -/
def vxlanSchema : VDict := [("type", .str "object"), ("properties", .dict vxlanSchema_properties), ("required", .list [.str "wireguard"])]

def zerotierSchema_def_zerotier_server : Val := .dict [("type", .str "object"), ("required", .list [.str "name"]), ("properties", .dict [("name",
  .dict [("type", .str "string")]), ("id", .dict [("type", .str "string"), ("maxLength", .int 16)]), ("nwid", .dict [("type", .str "string"),
  ("maxLength", .int 16)]), ("objtype", .dict [("type", .str "string")]), ("revision", .dict [("type", .str "integer")]), ("creationTime",
  .dict [("type", .str "number")]), ("client_options", .dict [("type", .str "object"), ("properties", .dict [("allow_managed", .dict [("type",
  .str "boolean")]), ("allow_global", .dict [("type", .str "boolean")]), ("allow_default", .dict [("type", .str "boolean")]), ("allow_dns",
  .dict [("type", .str "boolean")])])]), ("capabilities", .dict [("type", .str "array"), ("items", .dict [("type", .str "object")])]), ("dns",
  .dict [("type", .str "object"), ("properties", .dict [("domain", .dict [("type", .str "string")]), ("servers", .dict [("type", .str "array"),
  ("items", .dict [("type", .str "string")])])])]), ("enableBroadcast", .dict [("type", .str "boolean")]), ("ipAssignmentPools", .dict [("type",
  .str "array"), ("items", .dict [("type", .str "object"), ("properties", .dict [("ipRangeStart", .dict [("type", .str "string")]), ("ipRangeEnd",
  .dict [("type", .str "string")])])])]), ("mtu", .dict [("type", .str "integer")]), ("multicastLimit", .dict [("type", .str "integer")]),
  ("private", .dict [("type", .str "boolean")]), ("remoteTraceLevel", .dict [("type", .str "integer")]), ("remoteTraceTarget", .dict [("type",
  .list [.str "string", .str "null"])]), ("routes", .dict [("type", .str "array"), ("items", .dict [("type", .str "object"), ("properties",
  .dict [("target", .dict [("type", .str "string")]), ("via", .dict [("type", .str "string")])])])]), ("rules", .dict [("type", .str "array"),
  ("items", .dict [("type", .str "object")])]), ("tags", .dict [("type", .str "array"), ("items", .dict [("type", .str "object")])]),
  ("v4AssignMode", .dict [("type", .str "object"), ("properties", .dict [("zt", .dict [("type", .str "boolean")])])]), ("v6AssignMode",
  .dict [("type", .str "object"), ("properties", .dict [("6plane", .dict [("type", .str "boolean")]), ("rfc4193", .dict [("type", .str "boolean")]),
  ("zt", .dict [("type", .str "boolean")])])])])]

def zerotierSchema_definitions : VDict := [("zerotier_server", zerotierSchema_def_zerotier_server)]

def zerotierSchema_pro_zerotier : Val := .dict [("type", .str "array"), ("uniqueItems", .bool true), ("items", .dict [("type", .str "object"),
  ("allOf", .list [.dict [("$ref", .str "#/definitions/zerotier_server")]])])]

def zerotierSchema_properties : VDict := [("zerotier", zerotierSchema_pro_zerotier), ("files", owSchema_pro_files)]

/-- zerotier/schema.py: the schema of the ZeroTier backend -/
def zerotierSchema : VDict := [("type", .str "object"), ("definitions", .dict zerotierSchema_definitions), ("properties",
  .dict zerotierSchema_properties), ("required", .list [.str "zerotier"])]

def owispPatch_pro_general : Val := .dict [("required", .list [.str "hostname"])]

def owispPatch_pro_tc_options : Val := .dict [("type", .str "array"), ("items", .dict [("type", .str "object"), ("additionalProperties",
  .bool false), ("required", .list [.str "name"]), ("properties", .dict [("name", .dict [("type", .str "string")]), ("input_bandwidth",
  .dict [("type", .str "integer")]), ("output_bandwidth", .dict [("type", .str "integer")])])])]

def owispPatch_properties : VDict := [("general", owispPatch_pro_general), ("tc_options", owispPatch_pro_tc_options)]

/-- openwisp/schema.py l.9-44 -/
def owispPatch : VDict := [("properties", .dict owispPatch_properties)]

def owispSchema_def_tunnel : Val := .dict [("type", .str "object"), ("required", .list [.str "name", .str "mode", .str "proto", .str "dev"]),
  ("properties", .dict [("name", .dict [("type", .str "string"), ("minLength", .int 2), ("maxLength", .int 24), ("pattern",
  .str "^[0-9A-Za-z_-]*$")]), ("mode", .dict [("type", .str "string")]), ("proto", .dict [("type", .str "string")]), ("port", .dict [("type",
  .str "integer"), ("maximum", .int 65535), ("minimum", .int 1)]), ("dev_type", .dict [("type", .str "string"), ("enum", .list [.str "tun",
  .str "tap"])]), ("dev", .dict [("type", .str "string"), ("minLength", .int 2), ("maxLength", .int 15), ("pattern", .str "^[^\\s]*$")]), ("local",
  .dict [("type", .str "string")]), ("auth", .dict [("type", .str "string"), ("enum", .list [.str "DSA", .str "DSA-SHA", .str "DSA-SHA1",
  .str "DSA-SHA1-old", .str "MD4", .str "MD5", .str "MDC2", .str "RIPEMD160", .str "RSA-MD4", .str "RSA-MD5", .str "RSA-MDC2", .str "RSA-RIPEMD160",
  .str "RSA-SHA", .str "RSA-SHA1", .str "RSA-SHA1-2", .str "RSA-SHA224", .str "RSA-SHA256", .str "RSA-SHA384", .str "RSA-SHA512", .str "SHA",
  .str "SHA1", .str "SHA224", .str "SHA256", .str "SHA384", .str "SHA512", .str "ecdsa-with-SHA1", .str "whirlpool", .str "none"])]),
  ("data_ciphers", .dict [("type", .str "array"), ("minItems", .int 1), ("items", .dict [("type", .str "object"), ("required", .list [.str "cipher",
  .str "optional"]), ("properties", .dict [("cipher", .dict [("type", .str "string"), ("enum", .list [.str "", .str "AES-128-CBC",
  .str "AES-128-CFB", .str "AES-128-CFB1", .str "AES-128-CFB8", .str "AES-128-GCM", .str "AES-128-OFB", .str "AES-192-CBC", .str "AES-192-CFB",
  .str "AES-192-CFB1", .str "AES-192-CFB8", .str "AES-192-GCM", .str "AES-192-OFB", .str "AES-256-CBC", .str "AES-256-CFB", .str "AES-256-CFB1",
  .str "AES-256-CFB8", .str "AES-256-GCM", .str "AES-256-OFB", .str "ARIA-128-CBC", .str "ARIA-128-CFB", .str "ARIA-128-CFB1", .str "ARIA-128-CFB8",
  .str "ARIA-128-OFB", .str "ARIA-192-CBC", .str "ARIA-192-CFB", .str "ARIA-192-CFB1", .str "ARIA-192-CFB8", .str "ARIA-192-OFB",
  .str "ARIA-256-CBC", .str "ARIA-256-CFB", .str "ARIA-256-CFB1", .str "ARIA-256-CFB8", .str "ARIA-256-OFB", .str "CAMELLIA-128-CBC",
  .str "CAMELLIA-128-CFB", .str "CAMELLIA-128-CFB1", .str "CAMELLIA-128-CFB8", .str "CAMELLIA-128-OFB", .str "CAMELLIA-192-CBC",
  .str "CAMELLIA-192-CFB", .str "CAMELLIA-192-CFB1", .str "CAMELLIA-192-CFB8", .str "CAMELLIA-192-OFB", .str "CAMELLIA-256-CBC",
  .str "CAMELLIA-256-CFB", .str "CAMELLIA-256-CFB1", .str "CAMELLIA-256-CFB8", .str "CAMELLIA-256-OFB", .str "CHACHA20-POLY1305", .str "SEED-CBC",
  .str "SEED-CFB", .str "SEED-OFB", .str "SM4-CBC", .str "SM4-CFB", .str "SM4-OFB", .str "BF-CBC", .str "BF-CFB", .str "BF-OFB", .str "CAST5-CBC",
  .str "CAST5-CFB", .str "CAST5-OFB", .str "DES-CBC", .str "DES-CFB", .str "DES-CFB1", .str "DES-CFB8", .str "DES-EDE-CBC", .str "DES-EDE-CFB",
  .str "DES-EDE-OFB", .str "DES-EDE3-CBC", .str "DES-EDE3-CFB", .str "DES-EDE3-CFB1", .str "DES-EDE3-CFB8", .str "DES-EDE3-OFB", .str "DES-OFB",
  .str "DESX-CBC", .str "RC2-40-CBC", .str "RC2-64-CBC", .str "RC2-CBC", .str "RC2-CFB", .str "RC2-OFB", .str "none"])]), ("optional",
  .dict [("type", .str "boolean")])])])]), ("data_ciphers_fallback", .dict [("type", .str "string"), ("enum", .list [.str "AES-128-CBC",
  .str "AES-128-CFB", .str "AES-128-CFB1", .str "AES-128-CFB8", .str "AES-128-GCM", .str "AES-128-OFB", .str "AES-192-CBC", .str "AES-192-CFB",
  .str "AES-192-CFB1", .str "AES-192-CFB8", .str "AES-192-GCM", .str "AES-192-OFB", .str "AES-256-CBC", .str "AES-256-CFB", .str "AES-256-CFB1",
  .str "AES-256-CFB8", .str "AES-256-GCM", .str "AES-256-OFB", .str "ARIA-128-CBC", .str "ARIA-128-CFB", .str "ARIA-128-CFB1", .str "ARIA-128-CFB8",
  .str "ARIA-128-OFB", .str "ARIA-192-CBC", .str "ARIA-192-CFB", .str "ARIA-192-CFB1", .str "ARIA-192-CFB8", .str "ARIA-192-OFB",
  .str "ARIA-256-CBC", .str "ARIA-256-CFB", .str "ARIA-256-CFB1", .str "ARIA-256-CFB8", .str "ARIA-256-OFB", .str "CAMELLIA-128-CBC",
  .str "CAMELLIA-128-CFB", .str "CAMELLIA-128-CFB1", .str "CAMELLIA-128-CFB8", .str "CAMELLIA-128-OFB", .str "CAMELLIA-192-CBC",
  .str "CAMELLIA-192-CFB", .str "CAMELLIA-192-CFB1", .str "CAMELLIA-192-CFB8", .str "CAMELLIA-192-OFB", .str "CAMELLIA-256-CBC",
  .str "CAMELLIA-256-CFB", .str "CAMELLIA-256-CFB1", .str "CAMELLIA-256-CFB8", .str "CAMELLIA-256-OFB", .str "CHACHA20-POLY1305", .str "SEED-CBC",
  .str "SEED-CFB", .str "SEED-OFB", .str "SM4-CBC", .str "SM4-CFB", .str "SM4-OFB", .str "BF-CBC", .str "BF-CFB", .str "BF-OFB", .str "CAST5-CBC",
  .str "CAST5-CFB", .str "CAST5-OFB", .str "DES-CBC", .str "DES-CFB", .str "DES-CFB1", .str "DES-CFB8", .str "DES-EDE-CBC", .str "DES-EDE-CFB",
  .str "DES-EDE-OFB", .str "DES-EDE3-CBC", .str "DES-EDE3-CFB", .str "DES-EDE3-CFB1", .str "DES-EDE3-CFB8", .str "DES-EDE3-OFB", .str "DES-OFB",
  .str "DESX-CBC", .str "RC2-40-CBC", .str "RC2-64-CBC", .str "RC2-CBC", .str "RC2-CFB", .str "RC2-OFB", .str "none"])]), ("cipher", .dict [("type",
  .str "string"), ("enum", .list [.str "AES-128-CBC", .str "AES-128-CFB", .str "AES-128-CFB1", .str "AES-128-CFB8", .str "AES-128-GCM",
  .str "AES-128-OFB", .str "AES-192-CBC", .str "AES-192-CFB", .str "AES-192-CFB1", .str "AES-192-CFB8", .str "AES-192-GCM", .str "AES-192-OFB",
  .str "AES-256-CBC", .str "AES-256-CFB", .str "AES-256-CFB1", .str "AES-256-CFB8", .str "AES-256-GCM", .str "AES-256-OFB", .str "ARIA-128-CBC",
  .str "ARIA-128-CFB", .str "ARIA-128-CFB1", .str "ARIA-128-CFB8", .str "ARIA-128-OFB", .str "ARIA-192-CBC", .str "ARIA-192-CFB",
  .str "ARIA-192-CFB1", .str "ARIA-192-CFB8", .str "ARIA-192-OFB", .str "ARIA-256-CBC", .str "ARIA-256-CFB", .str "ARIA-256-CFB1",
  .str "ARIA-256-CFB8", .str "ARIA-256-OFB", .str "CAMELLIA-128-CBC", .str "CAMELLIA-128-CFB", .str "CAMELLIA-128-CFB1", .str "CAMELLIA-128-CFB8",
  .str "CAMELLIA-128-OFB", .str "CAMELLIA-192-CBC", .str "CAMELLIA-192-CFB", .str "CAMELLIA-192-CFB1", .str "CAMELLIA-192-CFB8",
  .str "CAMELLIA-192-OFB", .str "CAMELLIA-256-CBC", .str "CAMELLIA-256-CFB", .str "CAMELLIA-256-CFB1", .str "CAMELLIA-256-CFB8",
  .str "CAMELLIA-256-OFB", .str "CHACHA20-POLY1305", .str "SEED-CBC", .str "SEED-CFB", .str "SEED-OFB", .str "SM4-CBC", .str "SM4-CFB",
  .str "SM4-OFB", .str "BF-CBC", .str "BF-CFB", .str "BF-OFB", .str "CAST5-CBC", .str "CAST5-CFB", .str "CAST5-OFB", .str "DES-CBC", .str "DES-CFB",
  .str "DES-CFB1", .str "DES-CFB8", .str "DES-EDE-CBC", .str "DES-EDE-CFB", .str "DES-EDE-OFB", .str "DES-EDE3-CBC", .str "DES-EDE3-CFB",
  .str "DES-EDE3-CFB1", .str "DES-EDE3-CFB8", .str "DES-EDE3-OFB", .str "DES-OFB", .str "DESX-CBC", .str "RC2-40-CBC", .str "RC2-64-CBC",
  .str "RC2-CBC", .str "RC2-CFB", .str "RC2-OFB", .str "none"])]), ("engine", .dict [("type", .str "string"), ("enum", .list [.str "", .str "bsd",
  .str "rsax", .str "dynamic"])]), ("ca", .dict [("type", .str "string"), ("pattern", .str "^(\\S*)$")]), ("cert", .dict [("type", .str "string"),
  ("pattern", .str "^(\\S*)$")]), ("key", .dict [("type", .str "string"), ("pattern", .str "^(\\S*)$")]), ("pkcs12", .dict [("type", .str "string"),
  ("pattern", .str "^(\\S*)$")]), ("tls_auth", .dict [("type", .str "string")]), ("ns_cert_type", .dict [("type", .str "string")]), ("mtu_disc",
  .dict [("type", .str "string"), ("enum", .list [.str "no", .str "maybe", .str "yes"])]), ("mtu_test", .dict [("type", .str "boolean")]),
  ("fragment", .dict [("type", .str "integer"), ("minimum", .int 0)]), ("mssfix", .dict [("type", .str "integer"), ("minimum", .int 0)]),
  ("keepalive", .dict [("type", .str "string"), ("pattern", .str "^(([0-9]*) ([0-9]*)|)$")]), ("persist_tun", .dict [("type", .str "boolean")]),
  ("persist_key", .dict [("type", .str "boolean")]), ("tun_ipv6", .dict [("type", .str "boolean")]), ("up", .dict [("type", .str "string"),
  ("pattern", .str "^(\\S*)$")]), ("up_delay", .dict [("type", .str "integer"), ("minimum", .int 0)]), ("down", .dict [("type", .str "string"),
  ("pattern", .str "^(\\S*)$")]), ("script_security", .dict [("type", .str "integer"), ("enum", .list [.int 0, .int 1, .int 2, .int 3])]), ("user",
  .dict [("type", .str "string")]), ("group", .dict [("type", .str "string")]), ("mute", .dict [("type", .str "integer"), ("minimum", .int 0)]),
  ("status", .dict [("type", .str "string"), ("pattern", .str "^((\\S*) ([0-9]*)|(\\S*)|)$")]), ("status_version", .dict [("type", .str "integer"),
  ("enum", .list [.int 1, .int 2, .int 3])]), ("mute_replay_warnings", .dict [("type", .str "boolean")]), ("secret", .dict [("type", .str "string"),
  ("pattern", .str "^(\\S*)$")]), ("reneg_sec", .dict [("type", .str "integer")]), ("tls_timeout", .dict [("type", .str "integer")]), ("tls_cipher",
  .dict [("type", .str "string")]), ("remote_cert_tls", .dict [("type", .str "string")]), ("float", .dict [("type", .str "boolean")]),
  ("auth_nocache", .dict [("type", .str "boolean")]), ("fast_io", .dict [("type", .str "boolean")]), ("log", .dict [("type", .str "string"),
  ("pattern", .str "^(\\S*)$")]), ("verb", .dict [("type", .str "integer"), ("enum", .list [.int 0, .int 1, .int 2, .int 3, .int 4, .int 5, .int 6,
  .int 7, .int 8, .int 9, .int 10, .int 11])]), ("allow_compression", .dict [("type", .str "string"), ("enum", .list [.str "", .str "asym",
  .str "no", .str "yes"])]), ("compress", .dict [("type", .str "string"), ("enum", .list [.str "", .str "lzo", .str "lz4", .str "lz4-v2",
  .str "stub", .str "stub-v2", .str "migrate"])]), ("comp_lzo", .dict [("type", .str "string"), ("enum", .list [.str "adaptive", .str "1",
  .str "yes", .str "0", .str "no"])]), ("disabled", .dict [("type", .str "boolean")])])]

def owispSchema_definitions : VDict := [("base_address", owSchema_def_base_address), ("static_address", owSchema_def_static_address),
  ("ipv4_address", owSchema_def_ipv4_address), ("ipv6_address", owSchema_def_ipv6_address), ("dhcp_address", owSchema_def_dhcp_address),
  ("base_interface_settings", owSchema_def_base_interface_settings), ("interface_settings", owSchema_def_interface_settings), ("network_interface",
  owSchema_def_network_interface), ("wireless_interface", owSchema_def_wireless_interface), ("bridge_interface", owSchema_def_bridge_interface),
  ("base_wireless_settings", owSchema_def_base_wireless_settings), ("ssid_wireless_property", owSchema_def_ssid_wireless_property),
  ("hidden_wireless_property", owSchema_def_hidden_wireless_property), ("bssid_wireless_property", owSchema_def_bssid_wireless_property),
  ("wds_wireless_property", owSchema_def_wds_wireless_property), ("mesh_id_wireless_property", owSchema_def_mesh_id_wireless_property),
  ("encryption_wireless_property_ap", owSchema_def_encryption_wireless_property_ap), ("encryption_wireless_property_sta",
  owSchema_def_encryption_wireless_property_sta), ("encryption_wireless_property_mesh", owSchema_def_encryption_wireless_property_mesh),
  ("encryption_none", owSchema_def_encryption_none), ("encryption_base_settings", owSchema_def_encryption_base_settings),
  ("encryption_cipher_property", owSchema_def_encryption_cipher_property), ("encryption_cipher_ccmp_required",
  owSchema_def_encryption_cipher_ccmp_required), ("encryption_mfp_property", owSchema_def_encryption_mfp_property),
  ("encryption_mfp_property_required", owSchema_def_encryption_mfp_property_required), ("encryption_mfp_property_optional",
  owSchema_def_encryption_mfp_property_optional), ("encryption_owe", owSchema_def_encryption_owe), ("encryption_wpa3_personal",
  owSchema_def_encryption_wpa3_personal), ("encryption_wpa3_personal_mixed", owSchema_def_encryption_wpa3_personal_mixed),
  ("encryption_wpa_personal", owSchema_def_encryption_wpa_personal), ("encryption_wpa_enterprise_ap_base_settings",
  owSchema_def_encryption_wpa_enterprise_ap_base_settings), ("encryption_wpa_enterprise_sta_base_settings",
  owSchema_def_encryption_wpa_enterprise_sta_base_settings), ("encryption_wpa3_enterprise_base_settings",
  owSchema_def_encryption_wpa3_enterprise_base_settings), ("encryption_wpa3_enterprise_mixed_base_settings",
  owSchema_def_encryption_wpa3_enterprise_mixed_base_settings), ("encryption_wpa3_enterprise_ap", owSchema_def_encryption_wpa3_enterprise_ap),
  ("encryption_wpa3_enterprise_ap_mixed", owSchema_def_encryption_wpa3_enterprise_ap_mixed), ("encryption_wpa3_enterprise_sta",
  owSchema_def_encryption_wpa3_enterprise_sta), ("encryption_wpa3_enterprise_sta_mixed", owSchema_def_encryption_wpa3_enterprise_sta_mixed),
  ("encryption_wpa_enterprise_base_settings", owSchema_def_encryption_wpa_enterprise_base_settings), ("encryption_wpa_enterprise_ap",
  owSchema_def_encryption_wpa_enterprise_ap), ("encryption_wpa_enterprise_sta", owSchema_def_encryption_wpa_enterprise_sta), ("encryption_wep",
  owSchema_def_encryption_wep), ("encryption_wps", owSchema_def_encryption_wps), ("ap_wireless_settings", owSchema_def_ap_wireless_settings),
  ("sta_wireless_settings", owSchema_def_sta_wireless_settings), ("adhoc_wireless_settings", owSchema_def_adhoc_wireless_settings),
  ("monitor_wireless_settings", owSchema_def_monitor_wireless_settings), ("mesh_wireless_settings", owSchema_def_mesh_wireless_settings),
  ("base_radio_settings", owSchema_def_base_radio_settings), ("radio_2ghz_channels", owSchema_def_radio_2ghz_channels), ("radio_5ghz_channels",
  owSchema_def_radio_5ghz_channels), ("radio_6ghz_channels", owSchema_def_radio_6ghz_channels), ("radio_60ghz_channels",
  owSchema_def_radio_60ghz_channels), ("radio_2and5_channels", owSchema_def_radio_2and5_channels), ("radio_legacy_channel_width",
  owSchema_def_radio_legacy_channel_width), ("radio_n_channel_width", owSchema_def_radio_n_channel_width), ("radio_ac_channel_width",
  owSchema_def_radio_ac_channel_width), ("radio_ax_channel_width", owSchema_def_radio_ac_channel_width), ("radio_80211bg_settings",
  owSchema_def_radio_80211bg_settings), ("radio_80211a_settings", owSchema_def_radio_80211a_settings), ("radio_80211gn_settings",
  owSchema_def_radio_80211gn_settings), ("radio_80211an_settings", owSchema_def_radio_80211an_settings), ("radio_80211ac_5ghz_settings",
  owSchema_def_radio_80211ac_5ghz_settings), ("radio_80211ax_2ghz_settings", owSchema_def_radio_80211ax_2ghz_settings),
  ("radio_80211ax_5ghz_settings", owSchema_def_radio_80211ax_5ghz_settings), ("radio_80211ax_6ghz_settings",
  owSchema_def_radio_80211ax_6ghz_settings), ("radio_80211ad_60ghz_settings", owSchema_def_radio_80211ad_60ghz_settings), ("vlan_interface_settings",
  owSchema_def_vlan_interface_settings), ("vlan_8021q", owSchema_def_vlan_8021q), ("vlan_8021ad", owSchema_def_vlan_8021ad), ("dialup_interface",
  owSchema_def_dialup_interface), ("modemmanager_interface", owSchema_def_modemmanager_interface), ("wireguard_interface",
  owSchema_def_wireguard_interface), ("vxlan_interface", owSchema_def_vxlan_interface), ("radio_hwmode_11g", owSchema_def_radio_hwmode_11g),
  ("radio_hwmode_11a", owSchema_def_radio_hwmode_11a), ("radio_2g_band", owSchema_def_radio_2g_band), ("radio_5g_band", owSchema_def_radio_5g_band),
  ("radio_6g_band", owSchema_def_radio_6g_band), ("radio_60g_band", owSchema_def_radio_60g_band), ("tunnel", owispSchema_def_tunnel), ("client",
  owSchema_def_client), ("server", owSchema_def_server), ("server_manual", owSchema_def_server_manual), ("server_bridged",
  owSchema_def_server_bridged), ("server_routed", owSchema_def_server_routed)]

def owispSchema_pro_general : Val := .dict [("type", .str "object"), ("properties", .dict [("hostname", .dict [("type", .str "string"), ("maxLength",
  .int 63), ("minLength", .int 1), ("format", .str "hostname")]), ("timezone", .dict [("type", .str "string"), ("enum", .list [.str "UTC",
  .str "Africa/Abidjan", .str "Africa/Accra", .str "Africa/Addis Ababa", .str "Africa/Algiers", .str "Africa/Asmara", .str "Africa/Bamako",
  .str "Africa/Bangui", .str "Africa/Banjul", .str "Africa/Bissau", .str "Africa/Blantyre", .str "Africa/Brazzaville", .str "Africa/Bujumbura",
  .str "Africa/Cairo", .str "Africa/Casablanca", .str "Africa/Ceuta", .str "Africa/Conakry", .str "Africa/Dakar", .str "Africa/Dar es Salaam",
  .str "Africa/Djibouti", .str "Africa/Douala", .str "Africa/El Aaiun", .str "Africa/Freetown", .str "Africa/Gaborone", .str "Africa/Harare",
  .str "Africa/Johannesburg", .str "Africa/Juba", .str "Africa/Kampala", .str "Africa/Khartoum", .str "Africa/Kigali", .str "Africa/Kinshasa",
  .str "Africa/Lagos", .str "Africa/Libreville", .str "Africa/Lome", .str "Africa/Luanda", .str "Africa/Lubumbashi", .str "Africa/Lusaka",
  .str "Africa/Malabo", .str "Africa/Maputo", .str "Africa/Maseru", .str "Africa/Mbabane", .str "Africa/Mogadishu", .str "Africa/Monrovia",
  .str "Africa/Nairobi", .str "Africa/Ndjamena", .str "Africa/Niamey", .str "Africa/Nouakchott", .str "Africa/Ouagadougou", .str "Africa/Porto-Novo",
  .str "Africa/Sao Tome", .str "Africa/Tripoli", .str "Africa/Tunis", .str "Africa/Windhoek", .str "America/Adak", .str "America/Anchorage",
  .str "America/Anguilla", .str "America/Antigua", .str "America/Araguaina", .str "America/Argentina/Buenos Aires",
  .str "America/Argentina/Catamarca", .str "America/Argentina/Cordoba", .str "America/Argentina/Jujuy", .str "America/Argentina/La Rioja",
  .str "America/Argentina/Mendoza", .str "America/Argentina/Rio Gallegos", .str "America/Argentina/Salta", .str "America/Argentina/San Juan",
  .str "America/Argentina/San Luis", .str "America/Argentina/Tucuman", .str "America/Argentina/Ushuaia", .str "America/Aruba",
  .str "America/Asuncion", .str "America/Atikokan", .str "America/Bahia", .str "America/Bahia Banderas", .str "America/Barbados",
  .str "America/Belem", .str "America/Belize", .str "America/Blanc-Sablon", .str "America/Boa Vista", .str "America/Bogota", .str "America/Boise",
  .str "America/Cambridge Bay", .str "America/Campo Grande", .str "America/Cancun", .str "America/Caracas", .str "America/Cayenne",
  .str "America/Cayman", .str "America/Chicago", .str "America/Chihuahua", .str "America/Costa Rica", .str "America/Creston", .str "America/Cuiaba",
  .str "America/Curacao", .str "America/Danmarkshavn", .str "America/Dawson", .str "America/Dawson Creek", .str "America/Denver",
  .str "America/Detroit", .str "America/Dominica", .str "America/Edmonton", .str "America/Eirunepe", .str "America/El Salvador",
  .str "America/Fort Nelson", .str "America/Fortaleza", .str "America/Glace Bay", .str "America/Goose Bay", .str "America/Grand Turk",
  .str "America/Grenada", .str "America/Guadeloupe", .str "America/Guatemala", .str "America/Guayaquil", .str "America/Guyana",
  .str "America/Halifax", .str "America/Havana", .str "America/Hermosillo", .str "America/Indiana/Indianapolis", .str "America/Indiana/Knox",
  .str "America/Indiana/Marengo", .str "America/Indiana/Petersburg", .str "America/Indiana/Tell City", .str "America/Indiana/Vevay",
  .str "America/Indiana/Vincennes", .str "America/Indiana/Winamac", .str "America/Inuvik", .str "America/Iqaluit", .str "America/Jamaica",
  .str "America/Juneau", .str "America/Kentucky/Louisville", .str "America/Kentucky/Monticello", .str "America/Kralendijk", .str "America/La Paz",
  .str "America/Lima", .str "America/Los Angeles", .str "America/Lower Princes", .str "America/Maceio", .str "America/Managua",
  .str "America/Manaus", .str "America/Marigot", .str "America/Martinique", .str "America/Matamoros", .str "America/Mazatlan",
  .str "America/Menominee", .str "America/Merida", .str "America/Metlakatla", .str "America/Mexico City", .str "America/Miquelon",
  .str "America/Moncton", .str "America/Monterrey", .str "America/Montevideo", .str "America/Montreal", .str "America/Montserrat",
  .str "America/Nassau", .str "America/New York", .str "America/Nipigon", .str "America/Nome", .str "America/Noronha",
  .str "America/North Dakota/Beulah", .str "America/North Dakota/Center", .str "America/North Dakota/New Salem", .str "America/Nuuk",
  .str "America/Ojinaga", .str "America/Panama", .str "America/Pangnirtung", .str "America/Paramaribo", .str "America/Phoenix",
  .str "America/Port of Spain", .str "America/Port-au-Prince", .str "America/Porto Velho", .str "America/Puerto Rico", .str "America/Punta Arenas",
  .str "America/Rainy River", .str "America/Rankin Inlet", .str "America/Recife", .str "America/Regina", .str "America/Resolute",
  .str "America/Rio Branco", .str "America/Santa Isabel", .str "America/Santarem", .str "America/Santiago", .str "America/Santo Domingo",
  .str "America/Sao Paulo", .str "America/Scoresbysund", .str "America/Sitka", .str "America/Shiprock", .str "America/St Barthelemy",
  .str "America/St Johns", .str "America/St Kitts", .str "America/St Lucia", .str "America/St Thomas", .str "America/St Vincent",
  .str "America/Swift Current", .str "America/Tegucigalpa", .str "America/Thule", .str "America/Thunder Bay", .str "America/Tijuana",
  .str "America/Toronto", .str "America/Tortola", .str "America/Vancouver", .str "America/Whitehorse", .str "America/Winnipeg",
  .str "America/Yakutat", .str "America/Yellowknife", .str "Antarctica/Casey", .str "Antarctica/Davis", .str "Antarctica/DumontDUrville",
  .str "Antarctica/Macquarie", .str "Antarctica/Mawson", .str "Antarctica/McMurdo", .str "Antarctica/Palmer", .str "Antarctica/Rothera",
  .str "Antarctica/South Pole", .str "Antarctica/Syowa", .str "Antarctica/Troll", .str "Antarctica/Vostok", .str "Arctic/Longyearbyen",
  .str "Asia/Aden", .str "Asia/Almaty", .str "Asia/Amman", .str "Asia/Anadyr", .str "Asia/Aqtau", .str "Asia/Aqtobe", .str "Asia/Ashgabat",
  .str "Asia/Atyrau", .str "Asia/Baghdad", .str "Asia/Bahrain", .str "Asia/Baku", .str "Asia/Bangkok", .str "Asia/Barnaul", .str "Asia/Beirut",
  .str "Asia/Bishkek", .str "Asia/Brunei", .str "Asia/Chita", .str "Asia/Choibalsan", .str "Asia/Chongqing", .str "Asia/Colombo",
  .str "Asia/Damascus", .str "Asia/Dhaka", .str "Asia/Dili", .str "Asia/Dubai", .str "Asia/Dushanbe", .str "Asia/Famagusta", .str "Asia/Gaza",
  .str "Asia/Harbin", .str "Asia/Hebron", .str "Asia/Ho Chi Minh", .str "Asia/Hong Kong", .str "Asia/Hovd", .str "Asia/Irkutsk", .str "Asia/Jakarta",
  .str "Asia/Jayapura", .str "Asia/Jerusalem", .str "Asia/Kabul", .str "Asia/Kamchatka", .str "Asia/Karachi", .str "Asia/Kashgar",
  .str "Asia/Kathmandu", .str "Asia/Khandyga", .str "Asia/Kolkata", .str "Asia/Krasnoyarsk", .str "Asia/Kuala Lumpur", .str "Asia/Kuching",
  .str "Asia/Kuwait", .str "Asia/Macau", .str "Asia/Magadan", .str "Asia/Makassar", .str "Asia/Manila", .str "Asia/Muscat", .str "Asia/Nicosia",
  .str "Asia/Novokuznetsk", .str "Asia/Novosibirsk", .str "Asia/Omsk", .str "Asia/Oral", .str "Asia/Phnom Penh", .str "Asia/Pontianak",
  .str "Asia/Pyongyang", .str "Asia/Qatar", .str "Asia/Qostanay", .str "Asia/Qyzylorda", .str "Asia/Rangoon", .str "Asia/Riyadh",
  .str "Asia/Sakhalin", .str "Asia/Samarkand", .str "Asia/Seoul", .str "Asia/Shanghai", .str "Asia/Singapore", .str "Asia/Srednekolymsk",
  .str "Asia/Taipei", .str "Asia/Tashkent", .str "Asia/Tbilisi", .str "Asia/Tehran", .str "Asia/Thimphu", .str "Asia/Tokyo", .str "Asia/Tomsk",
  .str "Asia/Ulaanbaatar", .str "Asia/Urumqi", .str "Asia/Ust-Nera", .str "Asia/Vientiane", .str "Asia/Vladivostok", .str "Asia/Yakutsk",
  .str "Asia/Yangon", .str "Asia/Yekaterinburg", .str "Asia/Yerevan", .str "Atlantic/Azores", .str "Atlantic/Bermuda", .str "Atlantic/Canary",
  .str "Atlantic/Cape Verde", .str "Atlantic/Faroe", .str "Atlantic/Madeira", .str "Atlantic/Reykjavik", .str "Atlantic/South Georgia",
  .str "Atlantic/St Helena", .str "Atlantic/Stanley", .str "Australia/Adelaide", .str "Australia/Brisbane", .str "Australia/Broken Hill",
  .str "Australia/Currie", .str "Australia/Darwin", .str "Australia/Eucla", .str "Australia/Hobart", .str "Australia/Lindeman",
  .str "Australia/Lord Howe", .str "Australia/Melbourne", .str "Australia/Perth", .str "Australia/Sydney", .str "Etc/GMT", .str "Etc/GMT+1",
  .str "Etc/GMT+10", .str "Etc/GMT+11", .str "Etc/GMT+12", .str "Etc/GMT+2", .str "Etc/GMT+3", .str "Etc/GMT+4", .str "Etc/GMT+5", .str "Etc/GMT+6",
  .str "Etc/GMT+7", .str "Etc/GMT+8", .str "Etc/GMT+9", .str "Etc/GMT-1", .str "Etc/GMT-10", .str "Etc/GMT-11", .str "Etc/GMT-12", .str "Etc/GMT-13",
  .str "Etc/GMT-14", .str "Etc/GMT-2", .str "Etc/GMT-3", .str "Etc/GMT-4", .str "Etc/GMT-5", .str "Etc/GMT-6", .str "Etc/GMT-7", .str "Etc/GMT-8",
  .str "Etc/GMT-9", .str "Europe/Amsterdam", .str "Europe/Andorra", .str "Europe/Astrakhan", .str "Europe/Athens", .str "Europe/Belgrade",
  .str "Europe/Berlin", .str "Europe/Bratislava", .str "Europe/Brussels", .str "Europe/Bucharest", .str "Europe/Budapest", .str "Europe/Busingen",
  .str "Europe/Chisinau", .str "Europe/Copenhagen", .str "Europe/Dublin", .str "Europe/Gibraltar", .str "Europe/Guernsey", .str "Europe/Helsinki",
  .str "Europe/Isle of Man", .str "Europe/Istanbul", .str "Europe/Jersey", .str "Europe/Kaliningrad", .str "Europe/Kiev", .str "Europe/Kirov",
  .str "Europe/Kyiv", .str "Europe/Lisbon", .str "Europe/Ljubljana", .str "Europe/London", .str "Europe/Luxembourg", .str "Europe/Madrid",
  .str "Europe/Malta", .str "Europe/Mariehamn", .str "Europe/Minsk", .str "Europe/Monaco", .str "Europe/Moscow", .str "Europe/Oslo",
  .str "Europe/Paris", .str "Europe/Podgorica", .str "Europe/Prague", .str "Europe/Riga", .str "Europe/Rome", .str "Europe/Samara",
  .str "Europe/San Marino", .str "Europe/Sarajevo", .str "Europe/Saratov", .str "Europe/Simferopol", .str "Europe/Skopje", .str "Europe/Sofia",
  .str "Europe/Stockholm", .str "Europe/Tallinn", .str "Europe/Tirane", .str "Europe/Ulyanovsk", .str "Europe/Uzhgorod", .str "Europe/Vaduz",
  .str "Europe/Vatican", .str "Europe/Vienna", .str "Europe/Vilnius", .str "Europe/Volgograd", .str "Europe/Warsaw", .str "Europe/Zagreb",
  .str "Europe/Zaporozhye", .str "Europe/Zurich", .str "Indian/Antananarivo", .str "Indian/Chagos", .str "Indian/Christmas", .str "Indian/Cocos",
  .str "Indian/Comoro", .str "Indian/Kerguelen", .str "Indian/Mahe", .str "Indian/Maldives", .str "Indian/Mauritius", .str "Indian/Mayotte",
  .str "Indian/Reunion", .str "Pacific/Apia", .str "Pacific/Auckland", .str "Pacific/Bougainville", .str "Pacific/Chatham", .str "Pacific/Chuuk",
  .str "Pacific/Easter", .str "Pacific/Efate", .str "Pacific/Enderbury", .str "Pacific/Fakaofo", .str "Pacific/Fiji", .str "Pacific/Funafuti",
  .str "Pacific/Galapagos", .str "Pacific/Gambier", .str "Pacific/Guadalcanal", .str "Pacific/Guam", .str "Pacific/Honolulu",
  .str "Pacific/Johnston", .str "Pacific/Kanton", .str "Pacific/Kiritimati", .str "Pacific/Kosrae", .str "Pacific/Kwajalein", .str "Pacific/Majuro",
  .str "Pacific/Marquesas", .str "Pacific/Midway", .str "Pacific/Nauru", .str "Pacific/Niue", .str "Pacific/Norfolk", .str "Pacific/Noumea",
  .str "Pacific/Pago Pago", .str "Pacific/Palau", .str "Pacific/Pitcairn", .str "Pacific/Pohnpei", .str "Pacific/Ponape",
  .str "Pacific/Port Moresby", .str "Pacific/Rarotonga", .str "Pacific/Saipan", .str "Pacific/Tahiti", .str "Pacific/Tarawa",
  .str "Pacific/Tongatapu", .str "Pacific/Truk", .str "Pacific/Wake", .str "Pacific/Wallis"])]), ("ula_prefix", .dict [("type", .str "string")]),
  ("maintainer", .dict [("type", .str "string")]), ("description", .dict [("type", .str "string")])]), ("required", .list [.str "hostname"])]

def owispSchema_properties : VDict := [("general", owispSchema_pro_general), ("interfaces", owSchema_pro_interfaces), ("radios",
  owSchema_pro_radios), ("dns_servers", owSchema_pro_dns_servers), ("dns_search", owSchema_pro_dns_search), ("routes", owSchema_pro_routes),
  ("files", owSchema_pro_files), ("ip_rules", owSchema_pro_ip_rules), ("ntp", owSchema_pro_ntp), ("switch", owSchema_pro_switch), ("led",
  owSchema_pro_led), ("wireguard_peers", owSchema_pro_wireguard_peers), ("zerotier", owSchema_pro_zerotier), ("openvpn", owSchema_pro_openvpn),
  ("tc_options", owispPatch_pro_tc_options)]

/-- openwisp/schema.py: the schema of the OpenWisp backend -/
def owispSchema : VDict := [("type", .str "object"), ("definitions", .dict owispSchema_definitions), ("properties", .dict owispSchema_properties)]

end NJ

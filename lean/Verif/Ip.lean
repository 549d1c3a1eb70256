import Verif.Text

/-!
# IP addresses (the parts of CPython's `ipaddress` used by the converters)

IPv4 is modelled concretely. The text form of IPv6 addresses is a parameter (`Ip6`).
-/

namespace NJ

/-- IPv6 as a parameter: reading `address/prefix` or `address`, writing an address -/
structure Ip6 where
  read : Chars → Option (Nat × Nat)
  write : Nat → Chars

/-- `ipaddress.IPv4Interface` / `IPv6Interface` -/
structure IpIf where
  v6 : Bool
  addr : Nat
  plen : Nat
  deriving DecidableEq

/-- `IPv4Address._parse_octet` -/
def parseOctet (s : Chars) : Option Nat :=
  if s.isEmpty || !s.all isDigit || s.length > 3 || (s != ['0'] && s.head? == some '0') then none
  else match readNat s with
    | some n => if n ≤ 255 then some n else none
    | none => none

/-- `IPv4Address._ip_int_from_string` -/
def parseIp4 (s : Chars) : Option Nat :=
  match splitOn '.' s with
  | [a, b, c, d] =>
    match parseOctet a, parseOctet b, parseOctet c, parseOctet d with
    | some a, some b, some c, some d => some (((a * 256 + b) * 256 + c) * 256 + d)
    | _, _, _, _ => none
  | _ => none

/-- `str(IPv4Address)` -/
def showIp4 (n : Nat) : Chars :=
  joinWith ['.'] [showNat (n / 16777216 % 256), showNat (n / 65536 % 256), showNat (n / 256 % 256), showNat (n % 256)]

/-- the netmask of a prefix length as a number -/
def mask4 (p : Nat) : Nat := 4294967296 - 2 ^ (32 - p)

/-- the prefix length of a netmask, or else of a hostmask (`_prefix_from_ip_string`) -/
def prefixOfMask (n : Nat) : Option Nat :=
  match (List.range 33).find? (fun p => mask4 p == n) with
  | some p => some p
  | none => (List.range 33).find? (fun p => mask4 p == 4294967295 - n)

/-- `IPv4Network._make_netmask` -/
def parsePrefix4 (s : Chars) : Option Nat :=
  let dotted := match parseIp4 s with
    | some n => prefixOfMask n
    | none => none
  if !s.isEmpty && s.all isDigit then
    match readNat s with
    | some n => if n ≤ 32 then some n else dotted
    | none => dotted
  else dotted

/-- `IPv4Interface(text)` -/
def parseIf4 (s : Chars) : Option (Nat × Nat) :=
  match splitOn '/' s with
  | [a] => match parseIp4 a with
    | some n => some (n, 32)
    | none => none
  | [a, p] => match parseIp4 a, parsePrefix4 p with
    | some n, some k => some (n, k)
    | _, _ => none
  | _ => none

/-- `ip_interface(text)`: version 4 is tried first; `none` is `ValueError` -/
def ipInterface (ip6 : Ip6) (s : Chars) : Option IpIf :=
  match parseIf4 s with
  | some (n, p) => some ⟨false, n, p⟩
  | none => match ip6.read s with
    | some (n, p) => some ⟨true, n, p⟩
    | none => none

def bitsOf (v6 : Bool) : Nat := if v6 then 128 else 32

/-- the address of the network: host bits cleared -/
def IpIf.network (i : IpIf) : Nat := i.addr / 2 ^ (bitsOf i.v6 - i.plen) * 2 ^ (bitsOf i.v6 - i.plen)

/-- `str(ip)` -/
def showIp (ip6 : Ip6) (v6 : Bool) (n : Nat) : Chars := if v6 then ip6.write n else showIp4 n

/-- `str(interface)` -/
def IpIf.text (ip6 : Ip6) (i : IpIf) : Chars := showIp ip6 i.v6 i.addr ++ '/' :: showNat i.plen

/-- `ip_network(text)` (strict): host bits must be zero -/
def ipNetwork (ip6 : Ip6) (s : Chars) : Option IpIf :=
  match ipInterface ip6 s with
  | some i => if i.network = i.addr then some i else none
  | none => none

end NJ

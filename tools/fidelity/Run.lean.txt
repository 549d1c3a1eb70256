import Verif.OpenWrt
import Verif.OpenVpn
import Verif.WireGuard
import Verif.Schema
open NJ
/-- IPv6 -/
def hexv (c : Char) : Option Nat :=
  if c.isDigit then some (c.toNat - '0'.toNat) else if 'a' ≤ c.toLower ∧ c.toLower ≤ 'f' then some (c.toLower.toNat - 'a'.toNat + 10) else none
def grp (s : String) : Option Nat := if s.isEmpty ∨ s.length > 4 then none else s.toList.foldlM (fun n c => (hexv c).map (n*16 + ·)) 0
def addr6 (s : String) : Option Nat := do
  let side (t : String) : Option (List Nat) := if t.isEmpty then some [] else (t.splitOn ":").mapM grp
  let gs ← match s.splitOn "::" with
    | [a] => do let l ← side a; if l.length = 8 then some l else none
    | [a, b] => do
      let x ← side a; let y ← side b
      if x.length + y.length ≤ 7 then some (x ++ List.replicate (8 - x.length - y.length) 0 ++ y) else none
    | _ => none
  if !s.contains ':' then none else
  pure (gs.foldl (fun n g => n * 65536 + g) 0)
def read6 (c : Chars) : Option (Nat × Nat) :=
  match (String.ofList c).splitOn "/" with
  | [a] => (addr6 a).map (·, 128)
  | [a, p] => do let n ← addr6 a; let m ← p.toNat?; if m ≤ 128 then some (n, m) else none
  | _ => none
def hex (n : Nat) : String := String.ofList (Nat.toDigits 16 n)
def write6 (n : Nat) : Chars :=
  let gs := (List.range 8).map (fun i => n / 65536 ^ (7 - i) % 65536)
  -- longest run of zeros
  let run (i : Nat) := ((gs.drop i).takeWhile (· = 0)).length
  let best := (List.range 8).foldl (fun (b : Nat × Nat) i => if run i > b.2 then (i, run i) else b) (0, 0)
  if best.2 ≤ 1 then (":".intercalate (gs.map hex)).toList
  else (":".intercalate ((gs.take best.1).map hex) ++ "::" ++ ":".intercalate ((gs.drop (best.1 + best.2)).map hex)).toList
partial def dec : List String → Option (Val × List String)
  | [] => none
  | l :: r =>
    let rest := (l.drop 2).toString
    match l.toList.head? with
    | some 'n' => some (.none, r) | some 't' => some (.bool true, r) | some 'f' => some (.bool false, r)
    | some 'i' => some (.int rest.toInt!, r)
    | some 's' =>
      let rec un : List Char → List Char
        | '\\' :: 'n' :: t => '\n' :: un t
        | '\\' :: 'r' :: t => '\r' :: un t
        | '\\' :: '\\' :: t => '\\' :: un t
        | c :: t => c :: un t
        | [] => []
      some (.str (String.ofList (un rest.toList)), r)
    | some 'l' =>
      let rec items (n : Nat) (r : List String) : Option (List Val × List String) :=
        if n = 0 then some ([], r) else do
          let (v, r) ← dec r; let (vs, r) ← items (n-1) r; pure (v :: vs, r)
      do let (vs, r) ← items rest.toNat! r; pure (.list vs, r)
    | some 'd' =>
      let rec pairs (n : Nat) (r : List String) : Option (VDict × List String) :=
        if n = 0 then some ([], r) else do
          let (k, r) ← dec r
          let (v, r) ← dec r; let (vs, r) ← pairs (n-1) r
          match k with | .str k => pure ((k, v) :: vs, r) | _ => none
      do let (vs, r) ← pairs rest.toNat! r; pure (.dict vs, r)
    | _ => none
partial def show_ : Val → String
  | .none => "None" | .bool b => if b then "True" else "False" | .int i => toString i | .str s => repr s |>.pretty 100000
  | .list l => "[" ++ ", ".intercalate (l.map show_) ++ "]"
  | .dict d => "{" ++ ", ".intercalate ((d.mergeSort (fun a b => a.1 ≤ b.1)).map fun (k, v) => repr k |>.pretty 100000 |> (· ++ ": " ++ show_ v)) ++ "}"
partial def showErr (e : PyErr) : String := (repr e).pretty
def main (args : List String) : IO Unit := do
  let backend := args.headD "OpenWrt"
  let tzs := ((← IO.FS.readFile "/tmp/fid/tz.txt").splitOn "\n").filterMap (fun l => match l.splitOn "\t" with | [a, b] => some (a, b) | _ => none)
  let env : Env := {
    reprC := show_, lower := List.map Char.toLower, upper := List.map Char.toUpper
    tz := fun z => (tzs.find? (·.1 == z)).map (·.2)
    tzRev := fun z => (tzs.reverse.find? (·.2 == z)).map (·.1)
    ip6 := ⟨read6, write6⟩ }
  let lines := ((← IO.FS.readFile "/tmp/fid/cases.txt").splitOn "\n").filter (· ≠ "")
  let rec go (fuel : Nat) (ls : List String) (ok bad : Nat) : IO Unit := match fuel with
    | 0 => pure ()
    | fuel+1 => match ls with
    | [] => IO.println s!"ok {ok} bad {bad}"
    | ls => match dec ls with
      | some (.dict c, rest) => do
        let name := match Dict.get? c "name" with | some (.str s) => s | _ => "?"
        let kw := match Dict.get? c "kw" with | some (.dict d) => d | _ => []
        let build (kw : VDict) : Except PyErr BState × Class :=
          let dsa := Dict.get? kw "dsa" ≠ some (.bool false)
          let cls := if backend = "OpenVpn" then openvpnClass env (fun _ => .ok ()) (fun _ => true) (fun _ => none) else if backend = "Wireguard" then wireguardClass env (fun _ => .ok ()) (fun _ => true) (fun _ => none) else openwrtClass env (owValidate ⟨read6, write6⟩) (fun _ => true) (fun _ => none) dsa
          (construct cls ((Dict.get? kw "config").map Arg.val) ((Dict.get? kw "native").bind (fun | .str s => some s.toList | _ => none))
            (match Dict.get? kw "templates" with | some (.list l) => .list (l.map .val) | _ => .falsy)
            (match Dict.get? kw "context" with | some (.dict d) => some d | _ => none), cls)
        let (st, cls) := build kw
        let rend (files : Bool) (st : Except PyErr BState) (cls : Class) : String := match st with
          | .error e => showErr e
          | .ok st => match (render cls files st).2 with
            | .error e => showErr e
            | .ok t => String.ofList t
        let res : String × String := match Dict.get? c "kind" with
          | some (.str "render") =>
            (rend (Dict.get? c "files" ≠ some (.bool false)) st cls, match Dict.get? c "expected" with | some (.str s) => s | _ => "")
          | some (.str "validate") =>
            (match st with
              | .error .validation => "error"
              | .error .jsonSchema => "error"
              | .error e => showErr e
              | .ok st => match validate cls st.config with | .ok _ => "ok" | .error .validation => "error" | .error .jsonSchema => "error" | .error e => showErr e,
             match Dict.get? c "expected" with | some (.str s) => s | _ => "")
          | some (.str "same") =>
            let k2 := match Dict.get? c "kw2" with | some (.dict d) => d | _ => []
            let (s2, c2) := build k2
            (rend true st cls, rend true s2 c2)
          | _ => (match st with | .error e => showErr e | .ok st => show_ (.dict st.config), show_ ((Dict.get? c "expected").getD .none))
        if res.1 = res.2 then go fuel rest (ok+1) bad
        else do
          IO.println s!"BAD {name}\n--- model\n{res.1}\n--- expected\n{res.2}\n"
          go fuel rest ok (bad+1)
      | _ => IO.println "decode error"
  go 100000 lines 0 0

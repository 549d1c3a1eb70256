import Verif.PropsCliMore

/-!
# C96: a configuration with a variable, printed as JSON and given back
-/

namespace NJ

/-- `json.dumps` without keyword arguments -/
def plainDumps (kw d : VDict) : Except PyErr Chars := if kw.isEmpty then .ok (jsonDumps (.dict d)) else .error .typeError

def ztProgram : Class := zerotierReal sampleEnv (fun _ => false)

/-- a program without files -/
def ztRunOf (environ : VDict) (c : Chars) (os : List Chars) (m : CliMethod) (as : List Chars) : CliResult :=
  cliRun ztProgram plainDumps (fun _ => none) environ ⟨some c, none, os, m, as⟩

def ztSource : Chars := "{\"zerotier\": [{\"name\": \"{{N}}\"}]}".toList
def ztTemplate : Chars := "{\"owner\": \"me\"}".toList

/-- what was printed as text, and the status -/
def CliResult.text : CliResult → String ⊕ Nat
  | .done (.text t) [] => .inl (String.ofList t)
  | .done _ _ => .inr 0
  | .exit n => .inr n
  | .crash _ => .inr 99

theorem C96_sample_json : ztRunOf [("N", .str "z")] ztSource [ztTemplate] .json [] =
    .done (.text "{\"owner\": \"me\", \"zerotier\": [{\"name\": \"z\"}], \"type\": \"DeviceConfiguration\"}".toList) [] := by
  have h : construct ztProgram (some (.text ztSource)) none (.list [.text ztTemplate]) (some [("N", .str "z")]) =
    .ok ⟨[("owner", .str "me"), ("zerotier", .list [.dict [("name", .str "z")]])], none⟩ := by decide +kernel
  have hv : validate ztProgram [("owner", .str "me"), ("zerotier", .list [.dict [("name", .str "z")]])] = .ok () := by decide +kernel
  have := C96_json (cls := ztProgram) (dumps := plainDumps) (fs := fun _ => none) (environ := [("N", .str "z")]) (c := ztSource) (config := ztSource) (native := none)
    (os := [ztTemplate]) (ts := [ztTemplate]) (fun _ => rfl) true (by decide +kernel) (.inl ⟨by decide +kernel, by decide +kernel⟩)
    (.cons (.inl ⟨by decide +kernel, by decide +kernel⟩) .nil) h
  rw [if_pos rfl, if_pos rfl, hv] at this
  rw [show "{\"owner\": \"me\", \"zerotier\": [{\"name\": \"z\"}], \"type\": \"DeviceConfiguration\"}".toList = jsonDumps (.dict (Dict.set
    [("owner", .str "me"), ("zerotier", .list [.dict [("name", .str "z")]])] "type" (.str "DeviceConfiguration"))) by decide +kernel]
  exact this

/-- given back, in the same environment, every method ends as before -/
theorem C96_sample (q : CliMethod) (as : List Chars) :
    ztRunOf [("N", .str "z")] ("{\"owner\": \"me\", \"zerotier\": [{\"name\": \"z\"}], \"type\": \"DeviceConfiguration\"}".toList ++ ['\n']) [] q as =
      ztRunOf [("N", .str "z")] ztSource [ztTemplate] q as := by
  have h : construct ztProgram (some (.text ztSource)) none (.list [.text ztTemplate]) (some [("N", .str "z")]) =
    .ok ⟨[("owner", .str "me"), ("zerotier", .list [.dict [("name", .str "z")]])], none⟩ := by decide +kernel
  refine C96_again (cls := ztProgram) (env := sampleEnv) (sh := fun _ => false) (dsa := true) (schema := zerotierSchema) (packages := false)
    (by simp [backendsWithSchema, ztProgram]) (fun _ => rfl) (by decide +kernel) (.inl ⟨by decide +kernel, by decide +kernel⟩)
    (.cons (.inl ⟨by decide +kernel, by decide +kernel⟩) .nil) h (wfB_sound _ (by decide +kernel)) (fun h => by cases h) ?_ C96_sample_json _ (.inl rfl) none q as
  intro s hs p hp hi
  exfalso
  have h1 : '{' ∈ s := hi.subset (by simp [Ph.text])
  have h2 : ∀ s ∈ strings (.dict [("owner", .str "me"), ("zerotier", .list [.dict [("name", .str "z")]])]), '{' ∉ s := by decide +kernel
  exact h2 s hs h1

/-- and this is not only an error -/
theorem C96_sample_render : (ztRunOf [("N", .str "z")] ztSource [ztTemplate] .render []).text.isLeft = true := by decide +kernel

/-- the hypotheses of `C96_arguments` are met by a `write` without a name and by a `validate` with an argument -/
theorem C96_sample_arguments : (ztRunOf [("N", .str "z")] ztSource [ztTemplate] .write ["path=/tmp".toList]).text = .inr 5 ∧
    (ztRunOf [("N", .str "z")] ztSource [ztTemplate] .validate ["files=0".toList]).text = .inr 5 := by
  have h : construct ztProgram (some (.text ztSource)) none (.list [.text ztTemplate]) (some [("N", .str "z")]) =
    .ok ⟨[("owner", .str "me"), ("zerotier", .list [.dict [("name", .str "z")]])], none⟩ := by decide +kernel
  have ht : List.Forall₂ (TextOf fun _ => none) [ztTemplate] [ztTemplate] := .cons (.inl ⟨by decide +kernel, by decide +kernel⟩) .nil
  constructor
  · rw [ztRunOf, C96_arguments (config := ztSource) (kw := [("path", .str "/tmp")]) .write (by decide +kernel) (.inl ⟨by decide +kernel, by decide +kernel⟩) ht
      (by decide +kernel) h (.inr ⟨rfl, by decide +kernel⟩)]
    rfl
  · rw [ztRunOf, C96_arguments (config := ztSource) (kw := [("files", .bool false)]) .validate (by decide +kernel) (.inl ⟨by decide +kernel, by decide +kernel⟩) ht
      (by decide +kernel) h (.inl ⟨[], rfl, "files", by decide +kernel, by simp⟩)]
    rfl

/-- a variable whose value is the name of another: what was printed is evaluated again -/
theorem C96_needs_settled :
    (ztRunOf [("N", .str "{{M}}"), ("M", .str "x")] ztSource [] .json []).text = .inl "{\"zerotier\": [{\"name\": \"{{M}}\"}], \"type\": \"DeviceConfiguration\"}" ∧
    (ztRunOf [("N", .str "{{M}}"), ("M", .str "x")] "{\"zerotier\": [{\"name\": \"{{M}}\"}], \"type\": \"DeviceConfiguration\"}".toList [] .json []).text =
      .inl "{\"zerotier\": [{\"name\": \"x\"}], \"type\": \"DeviceConfiguration\"}" := by
  constructor <;> decide +kernel

/-- the name 1 becomes a boolean, and the file is called True.tar.gz; the path 1 ends the program with an exception -/
theorem C96_needs_text : (match ztRunOf [("N", .str "z")] ztSource [] .write ["name=1".toList] with
      | .done .nothing [.truncate p, _] => String.ofList p
      | _ => "") = "./True.tar.gz" ∧
    (match ztRunOf [("N", .str "z")] ztSource [] .write ["name=a".toList, "path=1".toList] with
      | .crash e => some e
      | _ => none) = some .attributeError := by
  constructor <;> decide +kernel

end NJ

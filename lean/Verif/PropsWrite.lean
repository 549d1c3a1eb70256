import Verif.Backend
import Verif.PropsValidSample

/-!
# C90: writing to disk

`BaseBackend.write` (base/backend.py l.301-315), as the operations it asks the file system for, in order; a run can be interrupted between any two. A file that is
an archive stands for its members; the bytes of an archive reach the disk in one operation (simplification: one interrupted in the middle leaves a truncated file as well).
-/

namespace NJ

/-- what `open(path, "wb")` and `f.write(…)` do to the file -/
inductive FsOp where
  | truncate (path : Chars)
  | append (path : Chars) (data : List Member)

/-- the files that exist, with what has been written to them -/
abbrev Fs := Chars → Option (List Member)

def FsOp.run (fs : Fs) : FsOp → Fs
  | .truncate p => fun q => if q = p then some [] else fs q
  | .append p a => fun q => if q = p then some ((fs p).getD [] ++ a) else fs q

/-- l.310-313: the path of the archive -/
def archivePath (name path : Chars) : Chars :=
  (if path.getLast? = some '/' then path else path ++ ['/']) ++ (name ++ ".tar.gz".toList)

/-- l.301-315 `write` -/
def writeOps (cls : Class) (st : BState) (name path : Chars) : BState × Except PyErr (List FsOp) :=
  match generate cls st with
  | (st', .error e) => (st', .error e)
  | (st', .ok archive) => (st', .ok [.truncate (archivePath name path), .append (archivePath name path) archive])

/-- the files after the first `k` operations -/
def afterOps (fs : Fs) (ops : List FsOp) (k : Nat) : Fs := (ops.take k).foldl FsOp.run fs

/-- **C90**, success: `write` leaves in the file called after its arguments the archive that `generate` returns, whatever was there before. -/
theorem C90_written (cls : Class) (st st' : BState) (name path : Chars) (fs : Fs) (archive : List Member) (h : generate cls st = (st', .ok archive)) :
    ∃ ops, writeOps cls st name path = (st', .ok ops) ∧ afterOps fs ops ops.length (archivePath name path) = some archive := by
  refine ⟨_, by unfold writeOps; rw [h], ?_⟩
  simp [afterOps, FsOp.run]

/-- **C90**, failure: if `generate` raises, so does `write`, and no file is touched. -/
theorem C90_failed (cls : Class) (st st' : BState) (name path : Chars) (e : PyErr) (h : generate cls st = (st', .error e)) :
    writeOps cls st name path = (st', .error e) := by
  unfold writeOps; rw [h]

/-- **C90**, interruption: at every moment the other files are as they were, and the file of the archive is as it was, empty or complete. -/
theorem C90_interrupted (cls : Class) (st st' : BState) (name path : Chars) (fs : Fs) (ops : List FsOp) (h : writeOps cls st name path = (st', .ok ops)) (k : Nat) :
    (∀ q, q ≠ archivePath name path → afterOps fs ops k q = fs q) ∧
    (afterOps fs ops k (archivePath name path) = fs (archivePath name path) ∨ afterOps fs ops k (archivePath name path) = some [] ∨
      ∃ archive, generate cls st = (st', .ok archive) ∧ afterOps fs ops k (archivePath name path) = some archive) := by
  unfold writeOps at h
  cases hg : generate cls st with
  | mk s r =>
    rw [hg] at h
    cases r with
    | error e => cases h
    | ok archive =>
      simp only [Prod.mk.injEq, Except.ok.injEq] at h
      obtain ⟨rfl, rfl⟩ := h
      match k with
      | 0 => exact ⟨fun q _ => rfl, .inl rfl⟩
      | 1 => exact ⟨fun q hq => by simp [afterOps, FsOp.run, hq], .inr (.inl (by simp [afterOps, FsOp.run]))⟩
      | k + 2 => exact ⟨fun q hq => by simp [afterOps, FsOp.run, hq], .inr (.inr ⟨archive, rfl, by simp [afterOps, FsOp.run]⟩)⟩

/-- **C90**, the path: it makes no difference whether the directory ends with a slash; different names in a directory are different files. -/
theorem C90_path (name name' path : Chars) : archivePath name (path ++ ['/']) = path ++ '/' :: name ++ ".tar.gz".toList ∧
    (path.getLast? ≠ some '/' → archivePath name path = archivePath name (path ++ ['/'])) ∧
    (archivePath name path = archivePath name' path → name = name') := by
  have h1 : archivePath name (path ++ ['/']) = path ++ '/' :: name ++ ".tar.gz".toList := by
    unfold archivePath
    rw [if_pos (by simp)]
    simp
  refine ⟨h1, fun hp => ?_, fun h => ?_⟩
  · rw [h1]
    unfold archivePath
    rw [if_neg hp]
    simp
  · exact List.append_cancel_right (List.append_cancel_left h)

/-- an interruption after the file is opened loses the archive that was there: the write is not atomic -/
theorem C90_needs_no_interruption : ∃ (st : BState) (fs : Fs) (ops : List FsOp), writeOps (validClass true) ⟨validSample, none⟩ "x".toList "/tmp".toList = (st, .ok ops) ∧
    (∃ m ms, fs (archivePath "x".toList "/tmp".toList) = some (m :: ms)) ∧ afterOps fs ops 1 (archivePath "x".toList "/tmp".toList) = some [] := by
  have hok : ∃ a, (generate (validClass true) ⟨validSample, none⟩).2 = .ok a := by
    have : (generate (validClass true) ⟨validSample, none⟩).2.isOk = true := by decide +kernel
    cases h : (generate (validClass true) ⟨validSample, none⟩).2 with
    | error e => rw [h] at this; cases this
    | ok a => exact ⟨a, rfl⟩
  obtain ⟨a, ha⟩ := hok
  cases hg : generate (validClass true) ⟨validSample, none⟩ with
  | mk st r =>
    rw [hg] at ha
    subst ha
    refine ⟨st, fun _ => some [⟨"old".toList, 420, []⟩], _, by unfold writeOps; rw [hg], ⟨_, _, rfl⟩, ?_⟩
    simp [afterOps, FsOp.run]

/-- an empty directory is the root directory -/
theorem C90_needs_path : archivePath "x".toList [] = "/x.tar.gz".toList := by decide

end NJ

import Verif.Launch
import Verif.Base64Props
/-! # C71: starting the node editor hands over the tree -/
namespace FastNoise.Launch

/-- Specification: the started editor shows what was asked for: this tree (none: its own saved graph) and this kind of window. -/
def Shows (argv : List Bytes) (tree : Option Bytes) (detached : Bool) : Prop := initialNodeTree argv = tree ∧ isDetached argv = detached

/-- Specification: no tree is given by a null pointer or an empty text. -/
def asked : Option Bytes → Option Bytes
  | some (c :: t) => some (c :: t)
  | _ => none

theorem given_eq (tree : Option Bytes) : given tree = asked tree := by
  rcases tree with _ | _ | ⟨c, t⟩ <;> simp [given, asked]

theorem flags_ne : detachedFlag ≠ importFlag := by decide

/-- What the arguments mean to the editor. -/
theorem shows_argv (exe : Bytes) (tree : Option Bytes) (detached : Bool) (h : tree ≠ some detachedFlag) : Shows (posixArgv exe tree detached) (asked tree) detached := by
  have ne : (importFlag == detachedFlag) = false := by decide
  unfold posixArgv
  rw [given_eq]
  rcases tree with _ | _ | ⟨c, t⟩
  · cases detached <;> simp [asked, Shows, initialNodeTree, importLoop, isDetached]
  · cases detached <;> simp [asked, Shows, initialNodeTree, importLoop, isDetached]
  · have hne : (c :: t) ≠ detachedFlag := fun e => h (by rw [e])
    cases detached <;> simp [asked, Shows, initialNodeTree, importLoop, isDetached, flags_ne, flags_ne.symm, hne]

/-- **C71**, POSIX: an editor that is started shows the tree and the kind of window asked for, whatever bytes the text has and wherever the editor lies.  (A text that is the
word `--detached` would be taken for the flag; no tree has this text, see `C71_encoded`.) -/
theorem C71_posix (s : Sys) (ov : Bytes) (tree : Option Bytes) (detached : Bool) (h : tree ≠ some detachedFlag) (argv : List Bytes)
    (hs : (startPosix s ov tree detached).2 = some argv) : Shows argv (asked tree) detached := by
  unfold startPosix at hs
  simp only at hs
  split at hs
  · simp at hs
  · split at hs
    · split at hs
      · simp only [Option.some.injEq] at hs
        rw [← hs]; exact shows_argv _ tree detached h
      · simp at hs
    · simp at hs

/-! ## Windows -/

/-- A word that the command line keeps together without quotes. -/
def Plain (w : Bytes) : Prop := w ≠ [] ∧ ∀ c ∈ w, c ≠ 32 ∧ c ≠ 9 ∧ c ≠ 34 ∧ c ≠ 92

theorem cut_plain (w : Bytes) (hw : ∀ c ∈ w, c ≠ 32 ∧ c ≠ 9 ∧ c ≠ 34 ∧ c ≠ 92) : ∀ (r : Bytes) (j : Bool) (acc : Option Bytes), w ≠ [] →
    cutArgs (w ++ r) false j 0 acc = cutArgs r false false 0 (some (acc.getD [] ++ w)) := by
  induction w with
  | nil => intro r j acc h; exact absurd rfl h
  | cons c w ih =>
    intro r j acc _
    obtain ⟨h1, h2, h3, h4⟩ := hw c List.mem_cons_self
    rw [List.cons_append, cutArgs, if_neg h4, if_neg h3, if_neg (by simp [h1, h2])]
    by_cases hz : w = []
    · subst hz; simp
    · rw [ih (fun x hx => hw x (List.mem_cons_of_mem _ hx)) _ _ _ hz]
      simp

theorem cut_space (r : Bytes) (w : Option Bytes) : cutArgs (32 :: r) false false 0 w = w.toList ++ cutArgs r false false 0 none := by
  rw [cutArgs]; simp

theorem plain_detached : Plain detachedFlag := by
  refine ⟨by decide, ?_⟩
  decide
theorem plain_import : Plain importFlag := by
  refine ⟨by decide, ?_⟩
  decide

theorem quoted_path (exe rest : Bytes) (h : ∀ c ∈ exe, c ≠ 34) :
    windowsArgv ([34] ++ exe ++ [34] ++ rest) = exe :: cutArgs rest false false 0 none := by
  have e1 : (exe ++ (34 : UInt8) :: rest).takeWhile (· != 34) = exe := by
    rw [List.takeWhile_append_of_pos (by intro c hc; simpa using h c hc)]; simp
  have e2 : (exe ++ (34 : UInt8) :: rest).dropWhile (· != 34) = 34 :: rest := by
    rw [List.dropWhile_append_of_pos (by intro c hc; simpa using h c hc)]; simp
  simp only [List.cons_append, List.nil_append, List.append_assoc, windowsArgv, e1, e2, List.tail_cons]

/-- The command line is cut back into the arguments meant. -/
theorem windows_argv (exe : Bytes) (he : ∀ c ∈ exe, c ≠ 34) (tree : Option Bytes) (ht : ∀ t, asked tree = some t → Plain t) (detached : Bool) :
    windowsArgv (cmdLine exe tree detached) = posixArgv exe tree detached := by
  unfold cmdLine
  rw [List.append_assoc ([34] ++ exe ++ [34]), quoted_path exe _ he]
  unfold posixArgv
  rw [given_eq]
  cases hta : asked tree with
  | none =>
    cases detached
    · simp [cutArgs]
    · simp only [if_true, List.append_nil]
      rw [cut_space]
      have := cut_plain detachedFlag plain_detached.2 [] false none plain_detached.1
      rw [List.append_nil] at this
      rw [this]; simp [cutArgs]
  | some t =>
    have hp := ht t hta
    have tail : cutArgs (32 :: importFlag ++ 32 :: t) false false 0 none = [importFlag, t] := by
      rw [List.cons_append, cut_space, cut_plain importFlag plain_import.2 _ _ _ plain_import.1, cut_space]
      have := cut_plain t hp.2 [] false none hp.1
      rw [List.append_nil] at this
      rw [this]; simp [cutArgs]
    cases detached
    · simp only [Bool.false_eq_true, if_false, List.nil_append]
      rw [tail]
    · simp only [if_true]
      rw [List.cons_append, cut_space, cut_plain detachedFlag plain_detached.2 _ _ _ plain_detached.1]
      have step : ∀ (r : Bytes), cutArgs (32 :: r) false false 0 (some detachedFlag) = detachedFlag :: cutArgs (32 :: r) false false 0 none := by
        intro r; rw [cut_space, cut_space]; simp
      simp only [Option.getD_none, List.nil_append]
      rw [List.cons_append, step]
      rw [List.cons_append] at tail
      rw [tail]; rfl

/-- **C71**, Windows: the same for texts without spaces, tabs, quotes and backslashes and a path without quotes (no Windows path has one).  Partial: a text with such characters is cut or changed,
see `C71_windows_space_cut`; the texts of trees have none of them, see `C71_encoded`. -/
theorem C71_windows_partial (s : Sys) (ov : Bytes) (tree : Option Bytes) (detached : Bool) (hd : tree ≠ some detachedFlag) (ht : ∀ t, asked tree = some t → Plain t)
    (he : ∀ c ∈ findBinary s (candidatesWindows s) ov, c ≠ 34) (argv : List Bytes)
    (hs : (startWindows s ov tree detached).2 = some argv) : Shows argv (asked tree) detached := by
  unfold startWindows at hs
  simp only at hs
  split at hs
  · simp at hs
  · split at hs
    · simp only [Option.some.injEq] at hs
      rw [← hs, windows_argv _ he tree ht]; exact shows_argv _ tree detached hd
    · simp at hs

/-! ## The texts of trees -/

/-- The characters of an encoded text: letters, digits, `+ / @ =`. -/
def Letter (c : UInt8) : Prop := (65 ≤ c ∧ c ≤ 90) ∨ (97 ≤ c ∧ c ≤ 122) ∨ (48 ≤ c ∧ c ≤ 57) ∨ c = 43 ∨ c = 47 ∨ c = 64 ∨ c = 61

instance : DecidablePred Letter := fun c => by unfold Letter; infer_instance

theorem enc_letter (n : Nat) : Letter (Base64.enc n) ∨ Base64.enc n = 0 := by
  by_cases h : n < 64
  · have : ∀ i : Fin 64, Letter (Base64.enc i.val) := by decide +kernel
    exact Or.inl (this ⟨n, h⟩)
  · right
    have : Base64.encTable.length = 64 := by decide
    unfold Base64.enc
    rw [List.getD_eq_getElem?_getD, List.getElem?_eq_none (by omega)]; rfl

theorem mem_set {l : List UInt8} {i : Nat} {v c : UInt8} (h : c ∈ l.set i v) : c ∈ l ∨ c = v := List.mem_or_eq_of_mem_set h

theorem append_letters (s : Base64.EncSt) (c : UInt8) (hs : ∀ x ∈ s.ret, Letter x ∨ x = 0) (hc : Letter c ∨ c = 0) :
    ∀ x ∈ (Base64.appendChar s c).ret, Letter x ∨ x = 0 := by
  have hA : Letter Base64.chA := by decide
  have hrw : ∀ n, ∀ x ∈ Base64.rewriteTail s.ret n, Letter x ∨ x = 0 := by
    intro n x hx
    unfold Base64.rewriteTail at hx
    rcases mem_set hx with h | h
    · rcases mem_set h with h | h
      · exact hs x h
      · rw [h]; left; decide
    · rw [h]; exact enc_letter _
  unfold Base64.appendChar
  intro x hx
  split at hx
  · split at hx
    · rcases List.mem_append.mp hx with h | h
      · exact hs x h
      · rw [List.mem_singleton.mp h]; exact Or.inl hA
    · split at hx
      · rcases List.mem_append.mp hx with h | h
        · exact hrw _ x h
        · rw [List.mem_singleton.mp h]; exact Or.inl hA
      · exact hs x hx
  · have hret : ∀ y ∈ (if s.n ≥ 3 then Base64.rewriteTail s.ret s.n else s.ret), Letter y ∨ y = 0 := by
      intro y hy; split at hy
      · exact hrw _ y hy
      · exact hs y hy
    simp only at hx
    split at hx
    · rcases List.mem_append.mp hx with h | h
      · exact hret x h
      · rw [List.mem_singleton.mp h]; exact hc
    · exact hret x hx

theorem plain_letters (data : List UInt8) : ∀ x ∈ Base64.plainChars data, Letter x ∨ x = 0 := by
  have e : Letter Base64.chEq := by decide
  induction data using Base64.plainChars.induct with
  | case1 a b c rest ih =>
    intro x hx
    rw [Base64.plainChars] at hx
    rcases List.mem_append.mp hx with h | h
    · simp only [Base64.block3, List.mem_cons, List.not_mem_nil, or_false] at h
      rcases h with h | h | h | h <;> rw [h] <;> exact enc_letter _
    · exact ih x h
  | case2 a b =>
    intro x hx
    simp only [Base64.plainChars, List.mem_cons, List.not_mem_nil, or_false] at hx
    rcases hx with h | h | h | h <;> rw [h]
    · exact enc_letter _
    · exact enc_letter _
    · exact enc_letter _
    · exact Or.inl e
  | case3 a =>
    intro x hx
    simp only [Base64.plainChars, List.mem_cons, List.not_mem_nil, or_false] at hx
    rcases hx with h | h | h | h <;> rw [h]
    · exact enc_letter _
    · exact enc_letter _
    · exact Or.inl e
    · exact Or.inl e
  | case4 =>
    intro x hx
    simp only [Base64.plainChars, List.mem_cons, List.not_mem_nil, or_false] at hx
    right; exact hx

theorem encode_letters (data text : List UInt8) (h2 : 2 ≤ data.length) (hmax : data.length < 2 ^ 64) (h : Base64.encode data = some text) : text ≠ [] ∧ ∀ c ∈ text, Letter c := by
  obtain ⟨t, ht, hn, hz, -⟩ := Base64.C01_roundtrip_iff data h2 hmax
  have e : t = text := by rw [ht] at h; simpa using h
  rw [e] at hn hz
  refine ⟨hn, fun c hc => ?_⟩
  have key : ∀ (cs : List UInt8) (s : Base64.EncSt), (∀ x ∈ cs, Letter x ∨ x = 0) → (∀ x ∈ s.ret, Letter x ∨ x = 0) → ∀ x ∈ (cs.foldl Base64.appendChar s).ret, Letter x ∨ x = 0 := by
    intro cs
    induction cs with
    | nil => intro s _ h; exact h
    | cons c cs ih =>
      intro s hcs hs
      exact ih _ (fun x hx => hcs x (List.mem_cons_of_mem _ hx)) (append_letters s c hs (hcs c List.mem_cons_self))
  have hch : Base64.encodeChars data = some (Base64.plainChars data) := Base64.encodeChars_spec data h2 hmax
  unfold Base64.encode at h
  rw [hch] at h
  simp only [Option.map_some, Option.some.injEq] at h
  rw [← h] at hc
  rcases key _ _ (plain_letters data) (by simp) c hc with hl | hl
  · exact hl
  · exact absurd hl (hz c (by rw [← h]; exact hc))

theorem letter_plain {c : UInt8} (h : Letter c) : c ≠ 32 ∧ c ≠ 9 ∧ c ≠ 34 ∧ c ≠ 92 ∧ c ≠ 45 := by
  have : ∀ n : Fin 256, Letter (UInt8.ofNat n.val) → UInt8.ofNat n.val ≠ 32 ∧ UInt8.ofNat n.val ≠ 9 ∧ UInt8.ofNat n.val ≠ 34 ∧ UInt8.ofNat n.val ≠ 92 ∧ UInt8.ofNat n.val ≠ 45 := by decide +kernel
  have t := this ⟨c.toNat, c.toNat_lt⟩
  simp only [UInt8.ofNat_toNat] at t
  exact t h

/-- **C71**, trees: the text that the library's encoder produces reaches the editor unchanged on both systems, with the right kind of window, and gives the encoded bytes back
(outside of the encoder's own defect, C01). -/
theorem C71_encoded (s : Sys) (ov : Bytes) (data text : List UInt8) (h2 : 2 ≤ data.length) (hmax : data.length < 2 ^ 64) (h : Base64.encode data = some text) (detached : Bool)
    (argv : List Bytes) (hs : (startPosix s ov (some text) detached).2 = some argv ∨
      ((startWindows s ov (some text) detached).2 = some argv ∧ ∀ c ∈ findBinary s (candidatesWindows s) ov, c ≠ 34)) :
    initialNodeTree argv = some text ∧ isDetached argv = detached ∧
    (¬ Spec.HasRun 66 65 (Spec.rfc4648 data) → ∀ t, initialNodeTree argv = some t → Base64.decode t = .done data) := by
  obtain ⟨hn, hl⟩ := encode_letters data text h2 hmax h
  have hd : some text ≠ some detachedFlag := by
    intro e
    rw [Option.some.injEq] at e
    have := hl 45 (by rw [e]; decide)
    exact absurd rfl (letter_plain this).2.2.2.2
  have ha : asked (some text) = some text := by
    cases text with
    | nil => exact absurd rfl hn
    | cons => rfl
  have hsh : Shows argv (asked (some text)) detached := by
    rcases hs with hs | ⟨hs, he⟩
    · exact C71_posix s ov _ detached hd argv hs
    · refine C71_windows_partial s ov _ detached hd ?_ he argv hs
      intro t hat
      rw [ha, Option.some.injEq] at hat
      rw [← hat]
      exact ⟨hn, fun c hc => let q := letter_plain (hl c hc); ⟨q.1, q.2.1, q.2.2.1, q.2.2.2.1⟩⟩
  rw [ha] at hsh
  refine ⟨hsh.1, hsh.2, ?_⟩
  intro hr t hat
  rw [hsh.1, Option.some.injEq] at hat
  obtain ⟨t', ht', -, -, hdec⟩ := Base64.C01_roundtrip_iff data h2 hmax
  have e : t' = text := by rw [ht'] at h; simpa using h
  rw [← hat, ← e]
  exact hdec.mpr hr

/-! ## Which editor, and what the caller is told -/

/-- **C71**: the editor that is started is the one set with fnEditorIpcSetNodeEditorPath, else the first of the candidate places that has an executable file; a null or empty path
restores the search. -/
theorem C71_which (s : Sys) (cs : List Bytes) (path : Option Bytes) (exe : Bytes) (he : exe ≠ []) :
    findBinary s cs (setNodeEditorPath path) = exe ↔
      path = some exe ∨ (asked path = none ∧ ∃ before after, cs = before ++ exe :: after ∧ s.access exe = true ∧ ∀ c ∈ before, s.access c = false) := by
  have search : (cs.find? s.access).getD [] = exe ↔ ∃ before after, cs = before ++ exe :: after ∧ s.access exe = true ∧ ∀ c ∈ before, s.access c = false := by
    constructor
    · intro h
      cases hf : cs.find? s.access with
      | none => rw [hf] at h; exact absurd h.symm (by simpa using he)
      | some x =>
        rw [hf] at h
        simp only [Option.getD_some] at h
        subst h
        obtain ⟨h1, b, a, h2, h3⟩ := List.find?_eq_some_iff_append.mp hf
        exact ⟨b, a, h2, h1, fun c hc => by simpa using h3 c hc⟩
    · rintro ⟨b, a, h2, h1, h3⟩
      rw [List.find?_eq_some_iff_append.mpr ⟨h1, b, a, h2, fun c hc => by simp [h3 c hc]⟩]
      rfl
  rcases path with _ | _ | ⟨c, p⟩
  · simp [findBinary, setNodeEditorPath, asked, search]
  · simp [findBinary, setNodeEditorPath, asked, search, he.symm]
  · simp [findBinary, setNodeEditorPath, asked]

/-- **C71**, Windows: the caller is told the truth: true exactly if an editor runs. -/
theorem C71_told_windows (s : Sys) (ov : Bytes) (tree : Option Bytes) (detached : Bool) :
    (startWindows s ov tree detached).1 = true ↔ ∃ argv, (startWindows s ov tree detached).2 = some argv := by
  unfold startWindows
  simp only
  split
  · simp
  · split <;> simp

/-- **C71**, POSIX, partial: false is the truth, true only if the file can be executed (documentation: "false if NodeEditor binary was not found or launch failed"); see `C71_told_wrong`. -/
theorem C71_told_posix_partial (s : Sys) (ov : Bytes) (tree : Option Bytes) (detached : Bool) :
    ((startPosix s ov tree detached).1 = false → (startPosix s ov tree detached).2 = none) ∧
    (s.exec (findBinary s (candidatesPosix s) ov) = true →
      ((startPosix s ov tree detached).1 = true ↔ ∃ argv, (startPosix s ov tree detached).2 = some argv)) := by
  unfold startPosix
  simp only
  split
  · simp
  · split
    · refine ⟨by simp, fun h => ?_⟩
      simp [h]
    · simp

/-- A system on which nothing but `/opt/NodeEditor` exists. -/
def sampleSys : Sys where
  libDir := some (bytes "/usr/lib")
  access p := p == bytes "/opt/NodeEditor"
  fork := true
  exec p := p == bytes "/opt/NodeEditor"
  create _ := true

/-- Deviation: with a mistyped path the call reports success though no editor was started. -/
theorem C71_told_wrong : startPosix sampleSys (setNodeEditorPath (some (bytes "/opt/NodeEdito"))) none true = (true, none) := by decide +kernel

/-- Deviation (Windows): a text with a space is cut; here the rest even changes the kind of window. -/
theorem C71_windows_space_cut : ∃ argv, (startWindows sampleSys (bytes "C:\\e.exe") (some (bytes "AB --detached")) false).2 = some argv ∧
    initialNodeTree argv = some (bytes "AB") ∧ isDetached argv = true := ⟨_, rfl, by decide +kernel, by decide +kernel⟩

/-! ## The hypotheses are met -/

example : (startPosix sampleSys (bytes "/opt/NodeEditor") (some (bytes "EQACAAAAAAAgQBAAAAAAQCYAAQ==")) true).2 =
    some [bytes "/opt/NodeEditor", bytes "--detached", bytes "--import-ent", bytes "EQACAAAAAAAgQBAAAAAAQCYAAQ=="] := by decide +kernel

example : Shows (windowsArgv (cmdLine (bytes "C:\\Program Files\\NodeEditor.exe") (some (bytes "EQAC@CgQ==")) true)) (some (bytes "EQAC@CgQ==")) true :=
  C71_windows_partial sampleSys (bytes "C:\\Program Files\\NodeEditor.exe") (some (bytes "EQAC@CgQ==")) true (by decide +kernel)
    (by
      intro t ht
      have : t = bytes "EQAC@CgQ==" := (Option.some.inj (show some (bytes "EQAC@CgQ==") = some t from ht)).symm
      subst this; exact ⟨by decide, by decide +kernel⟩) (by decide +kernel) _ rfl

example : ∃ text argv, Base64.encode [16, 0, 2] = some text ∧ (startPosix sampleSys (bytes "/opt/NodeEditor") (some text) false).2 = some argv ∧ initialNodeTree argv = some text := by
  obtain ⟨text, h, -⟩ := Base64.C01_roundtrip_iff [16, 0, 2] (by decide) (by decide)
  refine ⟨text, _, h, rfl, ?_⟩
  exact (C71_encoded sampleSys (bytes "/opt/NodeEditor") [16, 0, 2] text (by decide) (by decide) h false _ (Or.inl rfl)).1

example : findBinary { sampleSys with access := fun p => p == bytes "../bin/NodeEditor" } (candidatesPosix sampleSys) (setNodeEditorPath none) = bytes "../bin/NodeEditor" := by decide +kernel

end FastNoise.Launch

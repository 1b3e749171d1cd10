import Verif.Cli.Text

/-! # C51: key and signature files -/

namespace Verif.Cli

open Verif Verif.Falcon

/-- Every character is on one line and not an equals sign. -/
def Flat (t : Text) : Prop := ∀ c ∈ t, c ≠ '=' ∧ c ≠ '\n'

/-- The lines of a file written by the tool: a comment and assignments. -/
theorem splitOn_file (ps : List (Text × Text)) (h : ∀ p ∈ ps, Flat p.1 ∧ Flat p.2) :
    splitOn '\n' (ps.flatMap fun p => assignLine p.1 p.2) = (ps.map fun p => p.1 ++ " = ".toList ++ p.2) ++ [[]] := by
  induction ps with
  | nil => rfl
  | cons p ps ih =>
    have hp := h p (by simp)
    rw [List.flatMap_cons, splitOn_assign _ _ _ (fun c hc => (hp.1 c hc).2) (fun c hc => (hp.2 c hc).2), ih fun q hq => h q (by simp [hq])]
    rfl

theorem parseVars_lines (ps : List (Text × Text)) (h : ∀ p ∈ ps, Flat p.1 ∧ Flat p.2) :
    parseVars (ps.map fun p => p.1 ++ " = ".toList ++ p.2) = .ok (ps.map fun p => (p.1 ++ [' '], ' ' :: p.2)) := by
  induction ps with
  | nil => rfl
  | cons p ps ih =>
    have hp := h p (by simp)
    rw [List.map_cons, parseVars, splitOn_eq_line _ _ (fun c hc => (hp.1 c hc).1) (fun c hc => (hp.2 c hc).1), ih fun q hq => h q (by simp [hq])]
    rfl

/-- Reading a file back gives the names with a space behind and the values with a space in front. -/
theorem parse_file (comment : Text) (hc : ∀ c ∈ comment, c ≠ '\n') (ps : List (Text × Text)) (h : ∀ p ∈ ps, Flat p.1 ∧ Flat p.2) :
    parseVars ((splitLines (comment ++ '\n' :: ps.flatMap fun p => assignLine p.1 p.2)).drop 1) = .ok (ps.map fun p => (p.1 ++ [' '], ' ' :: p.2)) := by
  have e : splitLines (comment ++ '\n' :: ps.flatMap fun p => assignLine p.1 p.2) = comment :: ps.map fun p => p.1 ++ " = ".toList ++ p.2 := by
    unfold splitLines
    rw [splitOn_cons _ _ _ hc, splitOn_file ps h, ← List.cons_append]
    generalize (comment :: ps.map fun p => p.1 ++ " = ".toList ++ p.2) = L
    simp
  rw [e, List.drop_one, List.tail_cons, parseVars_lines ps h]

theorem flat_of_all (t : Text) (h : t.all (fun c => c ≠ '=' && c ≠ '\n') = true) : Flat t := by
  intro c hc
  have := List.all_eq_true.1 h c hc
  simpa using this

theorem fmtNat_flat (n : ℕ) : Flat (fmtNat n) := by
  rw [← fmtNat_int]; exact fmtVal_chars (.int n)

theorem supported_flat (v : Text) (h : supported v = true) : Flat v := by
  simp only [supported, Bool.or_eq_true, decide_eq_true_eq] at h
  rcases h with ((rfl | rfl) | rfl) | rfl <;> exact flat_of_all _ (by decide)

theorem supported_lstrip (v : Text) (h : supported v = true) : lstrip (' ' :: v) = v := by
  simp only [supported, Bool.or_eq_true, decide_eq_true_eq] at h
  rcases h with ((rfl | rfl) | rfl) | rfl <;> decide

/-- C51: `load_pk` returns exactly the key that `save_pk` wrote, for every dimension, every polynomial or address and each of the four versions. -/
theorem C51_public_key (n : ℕ) (pk : Val) (version : Text) (hv : supported version = true) :
    loadPk (savePk n pk version) = .ok (some ⟨n, pk, version⟩) := by
  have hf : ∀ p ∈ [("n".toList, fmtNat n), ("pk".toList, fmtVal pk), ("version".toList, version)], Flat p.1 ∧ Flat p.2 := by
    intro p hp
    simp only [List.mem_cons, List.not_mem_nil, or_false] at hp
    rcases hp with rfl | rfl | rfl
    · exact ⟨flat_of_all _ rfl, fmtNat_flat n⟩
    · exact ⟨flat_of_all _ rfl, fmtVal_chars pk⟩
    · exact ⟨flat_of_all _ rfl, supported_flat _ hv⟩
  have e : savePk n pk version = "# public key".toList ++ '\n' :: ([("n".toList, fmtNat n), ("pk".toList, fmtVal pk), ("version".toList, version)].flatMap fun p => assignLine p.1 p.2) := by
    have : "# public key\n".toList = "# public key".toList ++ ['\n'] := by decide
    unfold savePk
    rw [this]
    simp
  unfold loadPk
  rw [e, parse_file _ (by decide) _ hf]
  have e1 : ∀ a b c : Text, lookup ([("n".toList, a), ("pk".toList, b), ("version".toList, c)].map fun p => (p.1 ++ [' '], ' ' :: p.2)) "n ".toList = .ok (' ' :: a) := fun _ _ _ => rfl
  have e2 : ∀ a b c : Text, lookup ([("n".toList, a), ("pk".toList, b), ("version".toList, c)].map fun p => (p.1 ++ [' '], ' ' :: p.2)) "pk ".toList = .ok (' ' :: b) := fun _ _ _ => rfl
  have e3 : ∀ a b c : Text, lookup ([("n".toList, a), ("pk".toList, b), ("version".toList, c)].map fun p => (p.1 ++ [' '], ' ' :: p.2)) "version ".toList = .ok (' ' :: c) := fun _ _ _ => rfl
  simp only [lookupVal, e1, e2, e3, literalEval_fmt, supported_lstrip _ hv, hv, if_true]
  rw [← fmtNat_int, parseInt_space]

/-- C51: `load_sk` returns exactly the secret polynomials that `save_sk` wrote. -/
theorem C51_secret_key (n : ℕ) (f g F G : List ℤ) (version : Text) (hv : supported version = true) :
    loadSk (saveSk n f g F G version) = .ok (some ⟨n, .list f, .list g, .list F, .list G, version⟩) := by
  have hf : ∀ p ∈ [("n".toList, fmtNat n), ("f".toList, fmtList f), ("g".toList, fmtList g), ("F".toList, fmtList F), ("G".toList, fmtList G), ("version".toList, version)],
      Flat p.1 ∧ Flat p.2 := by
    intro p hp
    simp only [List.mem_cons, List.not_mem_nil, or_false] at hp
    rcases hp with rfl | rfl | rfl | rfl | rfl | rfl
    · exact ⟨flat_of_all _ rfl, fmtNat_flat n⟩
    · exact ⟨flat_of_all _ rfl, fmtList_chars _⟩
    · exact ⟨flat_of_all _ rfl, fmtList_chars _⟩
    · exact ⟨flat_of_all _ rfl, fmtList_chars _⟩
    · exact ⟨flat_of_all _ rfl, fmtList_chars _⟩
    · exact ⟨flat_of_all _ rfl, supported_flat _ hv⟩
  have e : saveSk n f g F G version = "# private key".toList ++ '\n' :: ([("n".toList, fmtNat n), ("f".toList, fmtList f), ("g".toList, fmtList g), ("F".toList, fmtList F),
      ("G".toList, fmtList G), ("version".toList, version)].flatMap fun p => assignLine p.1 p.2) := by
    have : "# private key\n".toList = "# private key".toList ++ ['\n'] := by decide
    unfold saveSk
    rw [this]
    simp
  unfold loadSk
  rw [e, parse_file _ (by decide) _ hf]
  generalize hps : (List.map (fun p : Text × Text => (p.1 ++ [' '], ' ' :: p.2)) [("n".toList, fmtNat n), ("f".toList, fmtList f), ("g".toList, fmtList g), ("F".toList, fmtList F),
      ("G".toList, fmtList G), ("version".toList, version)]) = ps
  have e1 : lookup ps "n ".toList = .ok (' ' :: fmtNat n) := by rw [← hps]; rfl
  have e2 : lookup ps "f ".toList = .ok (' ' :: fmtList f) := by rw [← hps]; rfl
  have e3 : lookup ps "g ".toList = .ok (' ' :: fmtList g) := by rw [← hps]; rfl
  have e4 : lookup ps "F ".toList = .ok (' ' :: fmtList F) := by rw [← hps]; rfl
  have e5 : lookup ps "G ".toList = .ok (' ' :: fmtList G) := by rw [← hps]; rfl
  have e6 : lookup ps "version ".toList = .ok (' ' :: version) := by rw [← hps]; rfl
  simp only [lookupVal, e1, e2, e3, e4, e5, e6, literalEval_list, supported_lstrip _ hv, hv, if_true]
  rw [← fmtNat_int, parseInt_space]

/-- C51: signature files round trip. -/
theorem C51_signature (sig : Bytes) (h : IsBytes sig) : loadSignature (saveSignature sig) = .ok sig := fromHex_hexOf sig h

/-- C51: distinct keys give distinct files. -/
theorem C51_public_injective (n n' : ℕ) (pk pk' : Val) (v v' : Text) (hv : supported v = true) (hv' : supported v' = true) (h : savePk n pk v = savePk n' pk' v') :
    n = n' ∧ pk = pk' ∧ v = v' := by
  have := C51_public_key n pk v hv
  rw [h, C51_public_key n' pk' v' hv'] at this
  simp only [Except.ok.injEq, Option.some.injEq, PkFile.mk.injEq, Nat.cast_inj] at this
  exact ⟨this.1.symm, this.2.1.symm, this.2.2.symm⟩

/-- C51: the files of `genkeys` load to the generated key: the four secret polynomials, and the public polynomial or the address. -/
theorem C51_genkeys (P : PolyLib) (n : ℕ) (sk : SecretKey) (version : Text) (pkText skText : Text) (h : genFiles P n sk version = .ok (pkText, skText)) :
    loadSk skText = .ok (some ⟨n, .list sk.f, .list sk.g, .list sk.F, .list sk.G, version⟩) ∧
    (keyMode version = none → loadPk pkText = .ok (some ⟨n, .list sk.h, version⟩)) ∧
    (∀ M, keyMode version = some M → ∃ a, Epervier.keyAddress M P sk.h = .ok a ∧ loadPk pkText = .ok (some ⟨n, .int a, version⟩)) := by
  unfold genFiles at h
  by_cases hv : supported version = true
  · rw [if_pos hv] at h
    rcases hM : keyMode version with _ | M
    · rw [hM] at h
      simp only [Except.ok.injEq, Prod.mk.injEq] at h
      rw [← h.1, ← h.2]
      exact ⟨C51_secret_key _ _ _ _ _ _ hv, fun _ => C51_public_key _ _ _ hv, fun M h => by simp at h⟩
    · rw [hM] at h
      rcases ha : Epervier.keyAddress M P sk.h with e | a
      · simp only [ha] at h; cases h
      · simp only [ha] at h
        simp only [Except.ok.injEq, Prod.mk.injEq] at h
        rw [← h.1, ← h.2]
        refine ⟨C51_secret_key _ _ _ _ _ _ hv, fun h => by simp at h, fun M' h => ?_⟩
        simp only [Option.some.injEq] at h
        subst h
        exact ⟨a, ha, C51_public_key _ _ _ hv⟩
  · rw [if_neg hv] at h; cases h

/-- C51: `genkeys` with an unknown version fails before any file is written. -/
theorem C51_genkeys_unknown (P : PolyLib) (n : ℕ) (sk : SecretKey) (version : Text) (h : supported version = false) :
    genFiles P n sk version = .error .typeError := by
  unfold genFiles
  rw [h]
  rfl

/-- A concrete file. -/
example : savePk 2 (.list [3, -14]) falconV = "# public key\nn = 2\npk = [3, -14]\nversion = falcon\n".toList := by decide +kernel
example : loadPk "# public key\nn = 2\npk = [3, -14]\nversion = falcon\n".toList = .ok (some ⟨2, .list [3, -14], falconV⟩) := by decide +kernel
example : loadPk "# public key\nn = 2\npk = [3, -14]\nversion = dilithium\n".toList = .ok none := by decide +kernel
example : loadPk "# public key\nn = 2\npk = [3, -14]".toList = .error .indexError := by decide +kernel
example : loadPk "n = 2\npk = [3, -14]\nversion = falcon\n".toList = .error .indexError := by decide +kernel
example : loadPk "#\nn = 2\npk = [3; -14]\nversion = falcon\n".toList = .error .valueError := by decide +kernel
example : loadSk (saveSk 2 [1, -2] [3] [] [0] epervierV) = .ok (some ⟨2, .list [1, -2], .list [3], .list [], .list [0], epervierV⟩) := by decide +kernel
example : saveSignature [0x39, 0, 0xff] = "3900ff".toList := by decide +kernel

end Verif.Cli

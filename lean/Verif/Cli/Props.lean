import Verif.Cli.Files
import Verif.Cli.Rand
import Verif.Cli.Tx
import Verif.Falcon.KeygenProps

/-! # C53: the commands of the tool -/

namespace Verif.Cli

open Verif Verif.Falcon Verif.Hash

/-! ## The hash function -/

/-- C53: for the versions `falcon`, `ethfalcon` and `epervier` verification uses the hash function of signing, whatever the inputs. -/
theorem C53_same_hash (P : PolyLib) (H : Bytes → Bytes) (p : PkFile) (data sig : Bytes) (version : Text) (fuel : ℕ)
    (hv : version = falconV ∨ version = ethfalconV ∨ version = epervierV) :
    verifySignature P H p data sig version fuel =
      (if signXof (some version) then verifyWith P shakeXof p data sig fuel else verifyWith P (keccakPrng H) p data sig fuel) := by
  rcases hv with rfl | rfl | rfl
  · rfl
  · rfl
  · rfl

/-- C53: which one it is: SHAKE for `falcon` and `epervier`, the Keccak generator for `ethfalcon` and `falconrec`. -/
theorem C53_which_hash : signXof (some falconV) = true ∧ signXof (some epervierV) = true ∧ signXof (some ethfalconV) = false ∧ signXof (some falconrecV) = false := by decide +kernel

/-- C53 (refutation): `falconrec` keys can be generated and used for signing, but `verify` fails for every public key file of that version, whatever the data and signature. -/
theorem C53_falconrec_false (P : PolyLib) (H : Bytes → Bytes) (pkText dataHex sigText : Text) (fuel : ℕ) (p : PkFile) (hp : loadPk pkText = .ok (some p)) (hv : p.version = falconrecV) :
    ¬ ∃ b, verifyCmd P H pkText dataHex sigText fuel = some (.ok b) := by
  rintro ⟨b, h⟩
  unfold verifyCmd at h
  rw [hp] at h
  simp only at h
  rcases hs : loadSignature sigText with e | sig
  · rw [hs] at h; cases h
  · rw [hs] at h
    simp only at h
    rcases hd : fromHex dataHex with e | data
    · rw [hd] at h; cases h
    · rw [hd] at h
      simp only [hv] at h
      cases h

/-! ## Sign then verify, on files -/

theorem buildSk_file (P : PolyLib) (n bound bytelen : ℕ) (hpar : params n = some (bound, bytelen)) (sk : SecretKey)
    (hmk : mkSecretKey P n sk.f sk.g sk.F sk.G = .ok sk) (version : Text) (hM : ∀ M, keyMode version = some M → ∃ a, Epervier.keyAddress M P sk.h = .ok a) :
    buildSk P ⟨n, .list sk.f, .list sk.g, .list sk.F, .list sk.G, version⟩ = .ok (n, bound, bytelen, sk) := by
  unfold buildSk
  simp only [Int.toNat_natCast, hpar, hmk]
  rw [if_neg (by omega)]
  rcases h : keyMode version with _ | M
  · rfl
  · obtain ⟨a, ha⟩ := hM M h
    simp only [ha]

/-- What `sign` writes for the files of `genkeys`. -/
theorem signCmd_file (P : PolyLib) (H : Bytes → Bytes) (Z : Sampler) (n bound bytelen : ℕ) (hpar : params n = some (bound, bytelen)) (sk : SecretKey)
    (hmk : mkSecretKey P n sk.f sk.g sk.F sk.G = .ok sk) (version pkText skText dataHex sigText : Text) (hg : genFiles P n sk version = .ok (pkText, skText)) (fuel : ℕ)
    (hs : signCmd P H Z skText dataHex fuel = some (.ok sigText)) :
    ∃ data sig hBytes, fromHex dataHex = .ok data ∧ joinBytes2 sk.h = .ok hBytes ∧ sigText = saveSignature sig ∧
      (if signXof (some version) then signWith P shakeXof (keyMode version) Z n bound bytelen sk hBytes data fuel
        else signWith P (keccakPrng H) (keyMode version) Z n bound bytelen sk hBytes data fuel) = some (.ok sig) := by
  obtain ⟨h1, _, h3⟩ := C51_genkeys P n sk version pkText skText hg
  unfold signCmd at hs
  rw [h1] at hs
  simp only at hs
  rw [buildSk_file P n bound bytelen hpar sk hmk version (fun M hM => (h3 M hM).imp fun a ha => ha.1)] at hs
  simp only at hs
  rcases hd : fromHex dataHex with e | data
  · rw [hd] at hs; cases hs
  · rw [hd] at hs
    simp only at hs
    rcases hsig : signature P H (keyMode version) Z n bound bytelen sk data (some version) fuel with _ | (e | sig)
    · rw [hsig] at hs; cases hs
    · rw [hsig] at hs; cases hs
    · rw [hsig] at hs
      simp only [Option.some.injEq, Except.ok.injEq] at hs
      unfold signature at hsig
      rcases hj : joinBytes2 sk.h with e | hBytes
      · rw [hj] at hsig; cases hsig
      · rw [hj] at hsig
        exact ⟨data, sig, hBytes, rfl, rfl, hs.symm, hsig⟩

theorem verifyCmd_file (P : PolyLib) (H : Bytes → Bytes) (n bound bytelen : ℕ) (hpar : params n = some (bound, bytelen)) (pk : Val) (version pkText dataHex : Text)
    (hp : loadPk pkText = .ok (some ⟨n, pk, version⟩)) (data sig : Bytes) (hd : fromHex dataHex = .ok data) (hsb : IsBytes sig) (fuel : ℕ) :
    verifyCmd P H pkText dataHex (saveSignature sig) fuel = verifySignature P H ⟨n, pk, version⟩ data sig version fuel := by
  unfold verifyCmd
  rw [hp]
  simp only
  rw [C51_signature sig hsb]
  simp only
  rw [hd]

/-- C53: `genkeys`, `sign` and `verify` work together for `falcon` and `ethfalcon`: whatever key was generated, whatever the sampler returned and whatever was signed, the signature
file verifies with the public key file. -/
theorem C53_falcon (P : PolyLib) (H : Bytes → Bytes) (Z : Sampler) (n bound bytelen : ℕ) (hpar : params n = some (bound, bytelen)) (A : Arith P n) (sk : SecretKey) (K : IsKey n sk)
    (hmk : mkSecretKey P n sk.f sk.g sk.F sk.G = .ok sk) (hZ : ∀ c s, (Z sk c s).1.length = n ∧ (Z sk c s).2.length = n) (version : Text)
    (hv : version = falconV ∨ version = ethfalconV) (pkText skText dataHex sigText : Text) (hg : genFiles P n sk version = .ok (pkText, skText)) (fuel : ℕ)
    (hs : signCmd P H Z skText dataHex fuel = some (.ok sigText)) :
    ∃ fuel', verifyCmd P H pkText dataHex sigText fuel' = some (.ok true) := by
  have hM : keyMode version = none := by rcases hv with rfl | rfl <;> decide
  obtain ⟨data, sig, hBytes, hd, _, rfl, hsig⟩ := signCmd_file P H Z n bound bytelen hpar sk hmk version pkText skText dataHex sigText hg fuel hs
  have hp := (C51_genkeys P n sk version pkText skText hg).2.1 hM
  have hl : (cliSalt hBytes data).length = 40 := cliBytes_length _ _ _ _
  have hb : IsBytes (cliSalt hBytes data) := cliBytes_isBytes _ _ _ _
  have main : ∀ {S : Type} (X : Xof S), signWith P X (keyMode version) Z n bound bytelen sk hBytes data fuel = some (.ok sig) →
      IsBytes sig ∧ ∃ fuel', verifyWith P X ⟨n, .list sk.h, version⟩ data sig fuel' = some (.ok true) := by
    intro S X h
    rw [hM] at h
    have hr : SignReturns X n bound bytelen (cliSalt hBytes data) data (fun c k => samplePreimage n sk c (Z sk c (cliSeed false hBytes data k))) sig := ⟨fuel, h⟩
    refine ⟨(C28_format X n bound bytelen hpar _ _ hl hb _ sig hr).1, ?_⟩
    obtain ⟨f', hf'⟩ := C27_sign_verify P X n bound bytelen hpar A sk K _ data hl hb (fun c k => Z sk c (cliSeed false hBytes data k)) (fun c k => hZ _ _) sig hr
    refine ⟨f', ?_⟩
    unfold verifyWith
    simp only [Int.toNat_natCast, hpar, hM]
    rw [if_neg (by omega)]
    exact hf'
  rcases hv with rfl | rfl
  · obtain ⟨hsb, f', hf'⟩ := main shakeXof hsig
    exact ⟨f', (verifyCmd_file P H n bound bytelen hpar _ _ _ _ hp data sig hd hsb f').trans hf'⟩
  · obtain ⟨hsb, f', hf'⟩ := main (keccakPrng H) hsig
    exact ⟨f', (verifyCmd_file P H n bound bytelen hpar _ _ _ _ hp data sig hd hsb f').trans hf'⟩

theorem joinBytes3_isBytes (l : List ℤ) (b : Bytes) (h : Epervier.joinBytes3 l = .ok b) : IsBytes b := by
  induction l generalizing b with
  | nil => cases h; intro x hx; cases hx
  | cons x l ih =>
    unfold Epervier.joinBytes3 at h
    rcases hx : Epervier.toBytes3 x with e | c
    · rw [hx] at h; cases h
    · rw [hx] at h
      simp only at h
      rcases hj : Epervier.joinBytes3 l with e | r
      · rw [hj] at h; cases h
      · rw [hj] at h
        cases h
        unfold Epervier.toBytes3 at hx
        split at hx
        · cases hx
        · rename_i hr
          cases hx
          intro y hy
          rw [List.mem_append] at hy
          rcases hy with hy | hy
          · simp only [List.mem_cons, List.not_mem_nil, or_false] at hy
            simp only [not_or, not_lt, not_le, ge_iff_le] at hr
            rcases hy with rfl | rfl | rfl <;> omega
          · exact ih r hj y hy

theorem logn_le (n bound bytelen : ℕ) (hpar : params n = some (bound, bytelen)) : logn n ≤ 10 := by
  unfold params at hpar
  split at hpar
  all_goals first
    | decide
    | cases hpar

/-- C53: the same for `epervier`: the public key file holds the address of the key, and `verify` recovers it. -/
theorem C53_epervier (P : PolyLib) (H : Bytes → Bytes) (Z : Sampler) (n bound bytelen : ℕ) (hpar : params n = some (bound, bytelen)) (w : ℕ → ZMod 12289) (A : Arith P n) (L : NttLaw P n w)
    (I : InvLaw P n) (sk : SecretKey) (K : IsKey n sk) (hr : Reduced sk.h)
    (hmk : mkSecretKey P n sk.f sk.g sk.F sk.G = .ok sk) (hZ : ∀ c s, (Z sk c s).1.length = n ∧ (Z sk c s).2.length = n)
    (pkText skText dataHex sigText : Text) (hg : genFiles P n sk epervierV = .ok (pkText, skText)) (fuel : ℕ)
    (hs : signCmd P H Z skText dataHex fuel = some (.ok sigText)) :
    ∃ fuel', verifyCmd P H pkText dataHex sigText fuel' = some (.ok true) := by
  have hM : keyMode epervierV = some Epervier.epervier := rfl
  have hn : 0 < n := by
    by_contra h0
    obtain rfl : n = 0 := by omega
    cases hpar
  obtain ⟨data, sig, hBytes, hd, _, rfl, hsig⟩ := signCmd_file P H Z n bound bytelen hpar sk hmk epervierV pkText skText dataHex sigText hg fuel hs
  obtain ⟨a, ha, hp⟩ := (C51_genkeys P n sk epervierV pkText skText hg).2.2 _ hM
  have hl : (cliSalt hBytes data).length = 40 := cliBytes_length _ _ _ _
  have hb : IsBytes (cliSalt hBytes data) := cliBytes_isBytes _ _ _ _
  have hsig : signWith P shakeXof (some Epervier.epervier) Z n bound bytelen sk hBytes data fuel = some (.ok sig) := hsig
  have hr' : Epervier.PySignReturns Epervier.epervier P shakeXof n bound bytelen (cliSalt hBytes data) data
      (fun c k => samplePreimage n sk c (Z sk c (cliSeed true hBytes data k))) sig := ⟨fuel, hsig⟩
  have hsb : IsBytes sig := by
    have hI : ∀ c k, c.length = n → (samplePreimage n sk c (Z sk c (cliSeed true hBytes data k))).2.length = n := fun c k hc =>
      (samplePreimage_isPreimage n hn sk K c hc (Z sk c (cliSeed true hBytes data k)) (hZ _ _).1 (hZ _ _).2).2.1
    obtain ⟨c, _, j, _, _, enc, b, e1, _, _, e4, rfl⟩ := (Epervier.C40_sign_iff Epervier.epervier P shakeXof n bound bytelen hn w L I _ data _ hI sig).1 hr'
    have hlog := logn_le n bound bytelen hpar
    have hbb : IsBytes b := by
      unfold Epervier.hintBytes at e4
      split at e4
      · cases e4
      · exact joinBytes3_isBytes _ _ e4
    intro x hx
    rw [List.mem_append, List.mem_append] at hx
    rcases hx with (hx | hx) | hx
    · rcases List.mem_cons.1 hx with rfl | hx
      · omega
      · exact hb x hx
    · exact e1 x hx
    · exact hbb x hx
  obtain ⟨pk, hpk, hver⟩ := Epervier.C40_epervier P shakeXof n bound bytelen hpar w A L I sk K hr _ data hl (fun c k => Z sk c (cliSeed true hBytes data k)) (fun c k => hZ _ _) sig hr'
  rw [ha] at hpk
  cases hpk
  obtain ⟨f', hf'⟩ := hver
  refine ⟨f', (verifyCmd_file P H n bound bytelen hpar _ _ _ _ hp data sig hd hsb f').trans ?_⟩
  change verifyWith P shakeXof ⟨n, .int a, epervierV⟩ data sig f' = _
  unfold verifyWith
  simp only [Int.toNat_natCast, hpar, hM]
  rw [if_neg (by omega)]
  unfold Epervier.pyVerify at hf'
  rcases hrec : Epervier.pyRecover Epervier.epervier P shakeXof n bound bytelen data sig f' with _ | (e | (_ | r))
  · rw [hrec] at hf'; cases hf'
  · rw [hrec] at hf'; cases hf'
  · rw [hrec] at hf'
    simp only [Option.some.injEq, Except.ok.injEq, Epervier.pyEq] at hf'
    simp only [Option.some.injEq, Except.ok.injEq]
    have := of_decide_eq_true hf'
    subst this
    decide
  · rw [hrec] at hf'
    simp only [Option.some.injEq, Except.ok.injEq, Epervier.pyEq] at hf'
    simp only [Option.some.injEq, Except.ok.injEq]
    have := of_decide_eq_true hf'
    subst this
    exact decide_eq_true rfl

/-! ## Transactions -/

/-- C53 (refutation): `sign_tx` never completes: after signing, its own check calls `verify_signature` with too few arguments. -/
theorem C53_sign_tx_false (P : PolyLib) (H : Bytes → Bytes) (Z : Sampler) (skText : Text) (nonce dest : ℤ) (data : Bytes) (value : ℤ) (version : Option Text) (fuel : ℕ) :
    ¬ ∃ t, signTxCmd P H Z skText nonce dest data value version fuel = some (.ok t) := by
  rintro ⟨t, h⟩
  unfold signTxCmd at h
  repeat' (split at h)
  all_goals cases h

/-- C53: `sign_tx` chooses the hash function by the option `--version` and not by the key file: without the option it is never SHAKE, so for a `falcon` key it is not that of `verify`. -/
theorem C53_sign_tx_hash_false : signXof none = false ∧ signXof (some falconV) = true := by decide +kernel

/-! ## Commands for the chain -/

/-- The number of fields of a template. -/
def fields : Text → ℕ
  | '{' :: '}' :: r => fields r + 1
  | _ :: r => fields r
  | [] => 0

/-- Too few values. -/
theorem pyFormat_few (t : Text) (args : List Text) (h : args.length < fields t) : pyFormat t args = .error .indexError := by
  fun_induction pyFormat t args with
  | case1 args => simp [fields] at h
  | case2 r => rfl
  | case3 r a as e he ih =>
    rw [fields, List.length_cons] at h
    rw [ih (by omega)] at he
    cases he
    rfl
  | case4 r a as t ht ih =>
    rw [fields, List.length_cons] at h
    rw [ih (by omega)] at ht
    cases ht
  | case5 args c r hn e he ih =>
    rw [fields] at h
    · rw [ih h] at he
      cases he
      rfl
    · exact hn
  | case6 args c r hn t ht ih =>
    rw [fields] at h
    · rw [ih h] at ht
      cases ht
    · exact hn

theorem pyFormat_lit (p r t : Text) (args : List Text) (hp : p.all (· ≠ '{') = true) (h : pyFormat r args = .ok t) : pyFormat (p ++ r) args = .ok (p ++ t) := by
  induction p with
  | nil => exact h
  | cons c p ih =>
    rw [List.all_cons, Bool.and_eq_true] at hp
    have hc : c ≠ '{' := by simpa using hp.1
    rw [List.cons_append, pyFormat]
    · rw [ih hp.2]; rfl
    · intro _ e; exact absurd e hc

theorem pyFormat_field (r t a : Text) (as : List Text) (h : pyFormat r as = .ok t) : pyFormat ('{' :: '}' :: r) (a :: as) = .ok (a ++ t) := by
  rw [pyFormat, h]

/-- C53 (refutation): `recoveronchainsend` fails for every signature: the template has eight fields and gets seven values. -/
theorem C53_recover_send_false (P : PolyLib) (data sig : Bytes) (contract rpc privateKey version : Text) :
    ¬ ∃ t, recoverSend P data sig contract rpc privateKey version = .ok t := by
  have h8 : fields recoverTemplate = 8 := by decide +kernel
  have key : ∀ a b c d e f g : Text, pyFormat recoverTemplate [a, b, c, d, e, f, g] = .error .indexError := fun _ _ _ _ _ _ _ => pyFormat_few _ _ (by rw [h8]; exact Nat.lt_succ_self 7)
  rintro ⟨t, h⟩
  unfold recoverSend at h
  split at h
  · cases h
  · split at h
    · cases h
    · rw [key] at h; cases h

/-- C53: `verifyonchainsend` runs `cast send` with, in the order of the contract's `verify(bytes,bytes,uint256[],uint256[])`: the data, the salt of the signature, the packed
second half of the signature and the packed transform of the public key. -/
theorem C53_verify_send (P : PolyLib) (pk : List ℤ) (bytelen : ℕ) (data sig : Bytes) (contract rpc privateKey version : Text) (hv : version = falconV ∨ version = ethfalconV)
    (s2 : List ℤ) (hs : Encoding.decompress (sig.drop 41) (bytelen - 41) 512 = .ok (some s2)) (c2 cpk : List ℕ)
    (h2 : Packing.falconCompact (s2.map fun x => (x % 12289).toNat) = .ok c2) (hpk : Packing.falconCompact ((P.ntt pk).map Int.toNat) = .ok cpk) :
    verifySend P pk bytelen data sig contract rpc privateKey version = .ok
      ("cast send --private-key ".toList ++ (privateKey ++ (" ".toList ++ (contract ++ (" \"verify(bytes,bytes,uint256[],uint256[])\" ".toList ++ (("0x".toList ++ hexOf data) ++ (" ".toList ++
        (("0x".toList ++ hexOf ((sig.drop 1).take 40)) ++ (" \"".toList ++ (fmtList (c2.map fun x : ℕ => (x : ℤ)) ++ ("\" \"".toList ++ (fmtList (cpk.map fun x : ℕ => (x : ℤ)) ++
          ("\" --rpc-url ".toList ++ rpc))))))))))))) := by
  have key : ∀ a b c d e f g : Text, pyFormat verifyTemplate [a, b, c, d, e, f, g] =
      .ok ("cast send --private-key ".toList ++ (a ++ (" ".toList ++ (b ++ (" \"verify(bytes,bytes,uint256[],uint256[])\" ".toList ++ (c ++ (" ".toList ++
        (d ++ (" \"".toList ++ (e ++ ("\" \"".toList ++ (f ++ ("\" --rpc-url ".toList ++ g))))))))))))) := by
    intro a b c d e f g
    have ht : verifyTemplate = "cast send --private-key ".toList ++ '{' :: '}' :: (" ".toList ++ '{' :: '}' :: (" \"verify(bytes,bytes,uint256[],uint256[])\" ".toList ++ '{' :: '}' ::
      (" ".toList ++ '{' :: '}' :: (" \"".toList ++ '{' :: '}' :: ("\" \"".toList ++ '{' :: '}' :: ("\" --rpc-url ".toList ++ ['{', '}'])))))) := by decide +kernel
    rw [ht]
    have last : pyFormat ['{', '}'] [g] = .ok g := by rw [pyFormat_field [] [] g [] rfl, List.append_nil]
    exact pyFormat_lit _ _ _ _ (by decide +kernel) (pyFormat_field _ _ _ _ (pyFormat_lit _ _ _ _ (by decide +kernel) (pyFormat_field _ _ _ _ (pyFormat_lit _ _ _ _ (by decide +kernel)
      (pyFormat_field _ _ _ _ (pyFormat_lit _ _ _ _ (by decide +kernel) (pyFormat_field _ _ _ _ (pyFormat_lit _ _ _ _ (by decide +kernel) (pyFormat_field _ _ _ _
      (pyFormat_lit _ _ _ _ (by decide +kernel) (pyFormat_field _ _ _ _ (pyFormat_lit _ _ _ _ (by decide +kernel) last))))))))))))
  unfold verifySend
  rw [if_neg (by tauto)]
  have e : 1 + 40 = 41 := rfl
  rw [e, show bytelen - 1 - 40 = bytelen - 41 by omega, hs]
  simp only [h2, hpk]
  rw [key]

/-! ## Non-vacuity: the files of a key of dimension 2 -/

def toyFile : Text := "# private key\nn = 2\nf = [1, 0]\ng = [111, 0]\nF = [-111, 0]\nG = [-32, 0]\nversion = falcon\n".toList
def toyPkFile : Text := "# public key\nn = 2\npk = [111, 0]\nversion = falcon\n".toList
/-- rounding down -/
def toySampler : Sampler := fun _ c _ => ([c.getD 0 0 / 111, c.getD 1 0 / 111], [0, 0])

set_option maxRecDepth 100000 in
/-- `genkeys`, `sign` and `verify` on concrete files, with real SHAKE. -/
example : ∃ sigText fuel, genFiles toyLib 2 toyKey falconV = .ok (toyPkFile, toyFile) ∧ signCmd toyLib (fun b => b) toySampler toyFile "010203".toList 10 = some (.ok sigText) ∧
    verifyCmd toyLib (fun b => b) toyPkFile "010203".toList sigText fuel = some (.ok true) := by
  have hg : genFiles toyLib 2 toyKey falconV = .ok (toyPkFile, toyFile) := by decide +kernel
  have hmk : mkSecretKey toyLib 2 toyKey.f toyKey.g toyKey.F toyKey.G = .ok toyKey := by rfl
  have hs : signCmd toyLib (fun b => b) toySampler toyFile "010203".toList 10 = some (.ok "21000000000000000000000000000000000000000000000000000000000000000000000000000000005184c0".toList) := by decide +kernel
  obtain ⟨f, hf⟩ := C53_falcon toyLib (fun b => b) toySampler 2 101498 44 rfl toyArith toyKey toyIsKey hmk (fun _ _ => ⟨rfl, rfl⟩) falconV (Or.inl rfl) _ _ _ _ hg 10 hs
  exact ⟨_, f, hg, hs, hf⟩

end Verif.Cli

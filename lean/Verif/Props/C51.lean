import Verif.Model.Fips

/-!
# C51: FIPS approval follows the rules for keys and mechanisms

"An operation is reported approved only when the FIPS rules list the mechanism for that operation, and
the type and size of the key for it."

* `C51_use_partial`: true of every key that carries no validation flag.
* `C51_made`: a key is marked when it is made only if its type, size and uses are within the rules.
* `C51_legacy_violation`: a key read from the storage carries the flag as soon as *some* operation is
  allowed for it, and with the flag every operation is.  An RSA key of 1024 bits, listed for
  verification only, signs as approved.
* `C51_placeholder_violation`: the entry that fills up the list of restrictions of a mechanism matches
  every key type, so the key type a mechanism is restricted to is not enforced.
* `C51_range_violation`: a range listed beside discrete sizes is never looked at.
-/

namespace Kry

namespace Spec

/-- A length fits sizes: it is one of the discrete sizes or, when there are none, it lies within the
range (zero stands for no bound). -/
def sizeFits (len : Nat) (z : FipsSizes) : Prop :=
  (len ∈ z.steps ∧ len ≠ 0) ∨
  ((∀ s ∈ z.steps, s = 0) ∧ (z.min ≠ 0 ∨ z.max ≠ 0) ∧ z.min ≤ len ∧ (z.max = 0 ∨ len ≤ z.max))

/-- The rules list the key type, with this length, for the operation. -/
def keyListed (keytype len op : Nat) : Prop :=
  ∃ k ∈ fipsKeys, k.keytype = keytype ∧ k.operations &&& op ≠ 0 ∧ sizeFits len k.sizes

/-- The rules list the mechanism for the operation. -/
def mechListed (mechanism op : Nat) : Prop :=
  ∃ m ∈ fipsMechs, m.mechanism = mechanism ∧ m.operations &&& op ≠ 0

/-- The key type and length of a key. -/
def keyIs (ecLen : Obj → Option Nat) (o : Obj) (keytype len : Nat) : Prop :=
  o.getUlong CKA_KEY_TYPE = .ok keytype ∧ fipsKeyLen ecLen o keytype = some len

end Spec

open Spec

theorem sizeSteps_spec (len : Nat) (l : List Nat) (r : Option Bool) :
    (l.foldl (sizeStep len) r = some true → r = some true ∨ (len ∈ l ∧ len ≠ 0)) ∧
    (l.foldl (sizeStep len) r = none → ∀ s ∈ l, s = 0) := by
  induction l generalizing r with
  | nil => exact ⟨fun h => .inl h, fun _ s hs => by cases hs⟩
  | cons a l ih =>
    obtain ⟨h1, h2⟩ := ih (sizeStep len r a)
    constructor
    · intro h
      rcases h1 h with h3 | h3
      · unfold sizeStep at h3
        split at h3
        · rename_i hc
          simp only [Option.some.injEq, decide_eq_true_eq] at h3
          exact .inr ⟨by simp [h3], by rw [h3]; exact hc.1⟩
        · exact .inl h3
      · exact .inr ⟨by simp [h3.1], h3.2⟩
    · intro h s hs
      rw [List.foldl_cons] at h
      have hno : sizeStep len r a = none := by
        clear ih h1 h2 hs
        generalize sizeStep len r a = q at h
        cases q with
        | none => rfl
        | some b =>
          exfalso
          have : ∀ (l : List Nat) (b : Bool), l.foldl (sizeStep len) (some b) ≠ none := by
            intro l
            induction l with
            | nil => intro b; simp
            | cons x l ih =>
              intro b
              rw [List.foldl_cons]
              have : ∃ c, sizeStep len (some b) x = some c := by
                unfold sizeStep; split <;> exact ⟨_, rfl⟩
              obtain ⟨c, hc⟩ := this
              rw [hc]; exact ih c
          exact this l b h
      rcases List.mem_cons.1 hs with h3 | h3
      · subst h3
        unfold sizeStep at hno
        split at hno
        · cases hno
        · rename_i hc
          by_cases h0 : s = 0
          · exact h0
          · rw [hno] at hc; exact absurd ⟨h0, by simp⟩ hc
      · exact h2 h s h3

theorem sizeCheck_fits {len : Nat} {z : FipsSizes} (h : sizeCheck len z = some true) :
    sizeFits len z := by
  have hs := sizeSteps_spec len z.steps none
  unfold sizeCheck at h
  cases hf : z.steps.foldl (sizeStep len) none with
  | some b =>
    rw [hf] at h
    simp only [Option.some.injEq] at h
    subst h
    rcases hs.1 hf with h1 | h1
    · cases h1
    · exact .inl h1
  | none =>
    rw [hf] at h
    simp only at h
    split at h
    · rename_i hne
      split at h
      · cases h
      · rename_i hmin
        split at h
        · cases h
        · rename_i hmax
          refine .inr ⟨hs.2 hf, ?_, by omega, by omega⟩
          by_cases h0 : z.min = 0
          · exact .inr (fun h1 => hne (by rw [h0, h1]))
          · exact .inl h0
    · cases h

theorem fipsKeyRule_listed {len keytype op : Nat} (h : fipsKeyRule fipsKeys len keytype op = true) :
    keyListed keytype len op := by
  unfold fipsKeyRule at h
  rw [List.any_eq_true] at h
  obtain ⟨k, hk, h⟩ := h
  simp only [Bool.and_eq_true, beq_iff_eq, bne_iff_ne, ne_eq] at h
  exact ⟨k, hk, h.1.1, h.1.2, sizeCheck_fits h.2⟩

theorem checkKey_listed {ecLen : Obj → Option Nat} {o : Obj} {op : Nat} {g : Option Nat}
    {r : Option (List (Nat × FipsSizes))} (h : checkKey ecLen o op g r = true) :
    ∃ kt len, keyIs ecLen o kt len ∧ keyListed kt len op ∧
      (∀ gf, g = some gf → fipsUsesOk o gf = true) := by
  unfold checkKey at h
  split at h
  · cases h
  rename_i kt hkt
  split at h
  · cases h
  rename_i len hlen
  simp only [Bool.and_eq_true] at h
  refine ⟨kt, len, ⟨hkt, hlen⟩, fipsKeyRule_listed h.2, ?_⟩
  intro gf hg
  subst hg
  exact h.1.1

theorem isApprovedIn_true {ecLen : Obj → Option Nat} {mechanism op : Nat} {inp out : Bool}
    {iobj oobj o' : Option Obj} (ms : List FipsMechanism)
    (h : isApprovedIn ecLen mechanism op inp out iobj oobj ms = (true, o')) :
    (∃ m ∈ ms, m.mechanism = mechanism ∧ m.operations &&& op ≠ 0 ∧
      (o' = oobj ∨ ∃ o, oobj = some o ∧ o' = some (addFipsFlag o) ∧
        checkKey ecLen o CK_UNAVAILABLE_INFORMATION (some m.genflags) (some m.restrictions) = true)) ∧
    (inp = true → inputOk ecLen iobj op = true) := by
  induction ms with
  | nil => cases h
  | cons m ms ih =>
    unfold isApprovedIn at h
    have up : ((∃ m ∈ ms, m.mechanism = mechanism ∧ m.operations &&& op ≠ 0 ∧
        (o' = oobj ∨ ∃ o, oobj = some o ∧ o' = some (addFipsFlag o) ∧
          checkKey ecLen o CK_UNAVAILABLE_INFORMATION (some m.genflags) (some m.restrictions) = true)) ∧
        (inp = true → inputOk ecLen iobj op = true)) →
        ((∃ m' ∈ m :: ms, m'.mechanism = mechanism ∧ m'.operations &&& op ≠ 0 ∧
        (o' = oobj ∨ ∃ o, oobj = some o ∧ o' = some (addFipsFlag o) ∧
          checkKey ecLen o CK_UNAVAILABLE_INFORMATION (some m'.genflags) (some m'.restrictions) = true)) ∧
        (inp = true → inputOk ecLen iobj op = true)) := by
      rintro ⟨⟨m', h1, h2⟩, h3⟩
      exact ⟨⟨m', by simp [h1], h2⟩, h3⟩
    split at h
    · exact up (ih h)
    rename_i hm
    have hm : m.mechanism = mechanism := by
      simp only [ne_eq, Decidable.not_not] at hm; exact hm.symm
    split at h
    · cases h
    rename_i hop
    split at h
    · rename_i hio
      cases h
      simp only [Bool.and_eq_true, Bool.not_eq_true'] at hio
      exact ⟨⟨m, by simp, hm, hop, .inl rfl⟩, fun hi => by rw [hio.1] at hi; cases hi⟩
    split at h
    · cases h
    rename_i hin
    have hin : inp = true → inputOk ecLen iobj op = true := by
      intro hi
      rw [hi, Bool.true_and, Bool.not_eq_true', Bool.not_eq_false] at hin
      exact hin
    split at h
    · cases h
      exact ⟨⟨m, by simp, hm, hop, .inl rfl⟩, hin⟩
    cases oobj with
    | none => exact up (ih h)
    | some o =>
      simp only at h
      split at h
      · rename_i hc
        cases h
        exact ⟨⟨m, by simp, hm, hop, .inr ⟨o, rfl, rfl, hc⟩⟩, hin⟩
      split at h
      · split at h
        · split at h
          · cases h
          · simp only [Prod.mk.injEq] at h
            exact ⟨⟨m, by simp, hm, hop, .inl h.2.symm⟩, hin⟩
        · exact up (ih h)
      · exact up (ih h)

/-- The operations that use a key of the application. -/
abbrev usesKey (op : Nat) : Prop :=
  op = CKF_SIGN ∨ op = CKF_VERIFY ∨ op = CKF_ENCRYPT ∨ op = CKF_DECRYPT ∨ op = CKF_WRAP ∨
    op = CKF_UNWRAP ∨ op = CKF_DERIVE

/-- **C51, using a key (partial).**  When an operation with a key without validation flag is found
approved, the rules list the mechanism for the operation, and the type and length of the key for it.
What is missing is the key that carries the flag, see `C51_legacy_violation`. -/
theorem C51_use_partial (ecLen : Obj → Option Nat) (mechanism op : Nat) (key : Obj)
    (oobj o' : Option Obj) (hop : usesKey op) (hflag : hasFipsFlag key = false)
    (h : isApproved ecLen mechanism op (some key) oobj = (true, o')) :
    mechListed mechanism op ∧ ∃ keytype len, keyIs ecLen key keytype len ∧ keyListed keytype len op := by
  unfold isApproved at h
  cases hc : fipsChecked op with
  | none => rw [hc] at h; cases h
  | some io =>
    obtain ⟨inp, out⟩ := io
    rw [hc] at h
    have hinp : inp = true := by
      have hall : (fipsChecked op).map (·.1) = some true := by
        rcases hop with h | h | h | h | h | h | h <;> subst h <;> decide +kernel
      rw [hc] at hall
      exact Option.some.inj hall
    obtain ⟨⟨m, h1, h2, h3, -⟩, h4⟩ := isApprovedIn_true fipsMechs h
    refine ⟨⟨m, h1, h2, h3⟩, ?_⟩
    have hi := h4 hinp
    unfold inputOk isKeyApproved at hi
    simp only [hflag, Bool.false_eq_true, if_false] at hi
    obtain ⟨kt, len, e1, e2, -⟩ := checkKey_listed hi
    exact ⟨kt, len, e1, e2⟩

/-- **C51, making a key.**  When making a key marks it, the rules list the mechanism for the operation,
they list the type and length of the key, and the key may not be used for anything beyond what the
rules list for the mechanism. -/
theorem C51_made (ecLen : Obj → Option Nat) (mechanism op : Nat) (iobj : Option Obj) (key key' : Obj)
    (b : Bool) (hflag : hasFipsFlag key = false) (hflag' : hasFipsFlag key' = true)
    (h : isApproved ecLen mechanism op iobj (some key) = (b, some key')) :
    b = true ∧ ∃ m ∈ fipsMechs, m.mechanism = mechanism ∧ m.operations &&& op ≠ 0 ∧
      (∃ keytype len, keyIs ecLen key keytype len ∧
        keyListed keytype len CK_UNAVAILABLE_INFORMATION) ∧
      ∀ f a, (f, a) ∈ fipsUses → key.getBool a = .ok true → m.genflags &&& f ≠ 0 := by
  have hne : key' ≠ key := by intro e; rw [e, hflag] at hflag'; cases hflag'
  unfold isApproved at h
  cases hc : fipsChecked op with
  | none => rw [hc] at h; cases h; exact absurd rfl hne
  | some io =>
    obtain ⟨inp, out⟩ := io
    rw [hc] at h
    simp only at h
    cases b with
    | false =>
      exfalso
      have : ∀ ms, isApprovedIn ecLen mechanism op inp out iobj (some key) ms = (false, some key') →
          False := by
        intro ms
        induction ms with
        | nil => intro h; cases h; exact hne rfl
        | cons m ms ih =>
          intro h
          unfold isApprovedIn at h
          split at h
          · exact ih h
          split at h
          · cases h; exact hne rfl
          split at h
          · cases h
          split at h
          · cases h; exact hne rfl
          split at h
          · cases h
          simp only at h
          split at h
          · cases h
          split at h
          · split at h
            · split at h
              · cases h; exact hne rfl
              · simp only [Prod.mk.injEq, Option.some.injEq] at h; exact hne h.2.symm
            · exact ih h
          · exact ih h
      exact this _ h
    | true =>
      refine ⟨rfl, ?_⟩
      obtain ⟨⟨m, h1, h2, h3, h4⟩, -⟩ := isApprovedIn_true fipsMechs h
      refine ⟨m, h1, h2, h3, ?_⟩
      rcases h4 with h4 | ⟨o, h4, -, h6⟩
      · exact absurd (Option.some.inj h4) hne
      · cases h4
        obtain ⟨kt, len, e1, e2, e3⟩ := checkKey_listed h6
        refine ⟨⟨kt, len, e1, e2⟩, fun f a hfa ha => ?_⟩
        have hu := e3 _ rfl
        unfold fipsUsesOk at hu
        rw [List.all_eq_true] at hu
        have := hu (f, a) hfa
        simp only [ha, Bool.not_true, Bool.or_false, bne_iff_ne, ne_eq] at this
        exact this

/-! ### Where the code departs from the rules -/

/-- An RSA private key with a modulus of 128 bytes. -/
def exLegacy : Obj :=
  ⟨1, 0, CKO_PRIVATE_KEY, [.ofUlong CKA_CLASS CKO_PRIVATE_KEY, .ofUlong CKA_KEY_TYPE CKK_RSA,
    .ofBool CKA_TOKEN true, .ofBool CKA_SIGN true, .ofBytes CKA_MODULUS (List.replicate 128 0xff)]⟩

set_option maxRecDepth 20000 in
/-- **C51, violated.**  An RSA key of 1024 bits is listed for `CKF_VERIFY`, `CKF_DECRYPT` and
`CKF_UNWRAP` only, and signing with it is not approved.  The same key read from the storage carries the
validation flag, and signing with it is approved (`src/fips/indicators.rs:1325`, `:1337`). -/
theorem C51_legacy_violation :
    keyIs (fun _ => none) exLegacy CKK_RSA 128 ∧ ¬ keyListed CKK_RSA 128 CKF_SIGN ∧
    (isApproved (fun _ => none) CKM_SHA256_RSA_PKCS CKF_SIGN (some exLegacy) none).1 = false ∧
    (isApproved (fun _ => none) CKM_SHA256_RSA_PKCS CKF_SIGN
      (some (addMissingFlag (fun _ => none) exLegacy)) none).1 = true := by
  refine ⟨⟨by decide +kernel, by decide +kernel⟩, ?_, by decide +kernel, by decide +kernel⟩
  rintro ⟨k, hk, h1, h2, h3⟩
  have hall : ∀ k ∈ fipsKeys, k.keytype = CKK_RSA → k.operations &&& CKF_SIGN ≠ 0 →
      k.sizes.steps = [] ∧ 128 < k.sizes.min := by decide +kernel
  obtain ⟨e1, e2⟩ := hall k hk h1 h2
  rcases h3 with ⟨h3, -⟩ | ⟨-, -, h3, -⟩
  · rw [e1] at h3; cases h3
  · omega

/-- An AES key of 32 bytes, as a result of `CKM_TLS12_EXTENDED_MASTER_KEY_DERIVE`. -/
def exMaster : Obj :=
  ⟨1, 0, CKO_SECRET_KEY, [.ofUlong CKA_CLASS CKO_SECRET_KEY, .ofUlong CKA_KEY_TYPE CKK_AES,
    .ofUlong CKA_VALUE_LEN 32, .ofBool CKA_ENCRYPT true]⟩

set_option maxRecDepth 20000 in
/-- **C51, violated.**  `CKM_TLS12_EXTENDED_MASTER_KEY_DERIVE` is restricted to generic secrets of 48
bytes.  An AES key of 32 bytes passes all the same: the empty restriction behind it
(`src/fips/indicators.rs:226-229`) matches every key type and asks for nothing. -/
theorem C51_placeholder_violation :
    (∃ m ∈ fipsMechs, m.mechanism = CKM_TLS12_EXTENDED_MASTER_KEY_DERIVE ∧
      m.restrictions.head? = some (CKK_GENERIC_SECRET, ⟨[48], 0, 0⟩)) ∧
    ∃ base, hasFipsFlag base = false ∧
      (isApproved (fun _ => none) CKM_TLS12_EXTENDED_MASTER_KEY_DERIVE CKF_DERIVE (some base)
        (some exMaster)) = (true, some (addFipsFlag exMaster)) := by
  refine ⟨?_, ⟨1, 0, CKO_SECRET_KEY, [.ofUlong CKA_CLASS CKO_SECRET_KEY,
    .ofUlong CKA_KEY_TYPE CKK_GENERIC_SECRET, .ofUlong CKA_VALUE_LEN 48]⟩, by decide +kernel,
    by decide +kernel⟩
  have h : (fipsMechs.any fun m => m.mechanism == CKM_TLS12_EXTENDED_MASTER_KEY_DERIVE &&
      m.restrictions.head? == some (CKK_GENERIC_SECRET, ⟨[48], 0, 0⟩)) = true := by decide +kernel
  rw [List.any_eq_true] at h
  obtain ⟨m, hm, h⟩ := h
  simp only [Bool.and_eq_true, beq_iff_eq] at h
  exact ⟨m, hm, h⟩

/-- **C51, violated.**  `CKM_HKDF_KEY_GEN` lists the sizes 256, 384 and 512 bits and the range from 160
to 224 bits.  No length of the range is ever accepted: the discrete sizes have decided before
(`src/fips/indicators.rs:1170`). -/
theorem C51_range_violation (len : Nat) (h : 20 ≤ len ∧ len ≤ 28) :
    sizeCheck len ⟨[btb 256, btb 384, btb 512], btb 160, btb 224⟩ = some false := by
  have : len = 20 ∨ len = 21 ∨ len = 22 ∨ len = 23 ∨ len = 24 ∨ len = 25 ∨ len = 26 ∨ len = 27 ∨
      len = 28 := by omega
  rcases this with h | h | h | h | h | h | h | h | h <;> subst h <;> decide

/-! ### Non-vacuity -/

/-- An AES key of 32 bytes without flag. -/
def exPlainAes : Obj :=
  ⟨1, 0, CKO_SECRET_KEY, [.ofUlong CKA_CLASS CKO_SECRET_KEY, .ofUlong CKA_KEY_TYPE CKK_AES,
    .ofUlong CKA_VALUE_LEN 32, .ofBool CKA_ENCRYPT true]⟩

set_option maxRecDepth 20000 in
/-- Encryption with it is approved, so the hypotheses of `C51_use_partial` can be met. -/
example : usesKey CKF_ENCRYPT ∧ hasFipsFlag exPlainAes = false ∧
    isApproved (fun _ => none) CKM_AES_CBC CKF_ENCRYPT (some exPlainAes) none = (true, none) :=
  ⟨by decide +kernel, by decide +kernel, by decide +kernel⟩

set_option maxRecDepth 20000 in
/-- Generating it marks it, so the hypotheses of `C51_made` can be met. -/
example : hasFipsFlag (addFipsFlag exPlainAes) = true ∧
    isApproved (fun _ => none) CKM_AES_KEY_GEN CKF_GENERATE none (some exPlainAes) =
      (true, some (addFipsFlag exPlainAes)) :=
  ⟨by decide +kernel, by decide +kernel⟩

end Kry

import Verif.Model.EdSig

/-! C80: EdDSA signatures.

The algorithms are a parameter.  What is proved is which of them is run on what: the variant of RFC 8032 for the curve and the parameter, with its context, over exactly the data, in parts or
at once; and what is not as it should be with more than 1 MiB of data. -/

namespace Kry

namespace Spec

/-- The variant of RFC 8032 that PKCS#11 (6.3.14, table for CK_EDDSA_PARAMS) asks for, with its context; Ed448 needs a parameter. -/
def edVariant : EdCurve → Option EdParam → Option (EdAlg × Bytes)
  | .ed25519, none => some (.ed25519, [])
  | .ed25519, some ⟨1, ctx⟩ => some (.ed25519ph, ctx)
  | .ed25519, some ⟨_, ctx⟩ => some (.ed25519ctx, ctx)
  | .ed448, none => none
  | .ed448, some ⟨1, ctx⟩ => some (.ed448ph, ctx)
  | .ed448, some ⟨_, ctx⟩ => some (.ed448, ctx)

/-- The lengths of signatures in RFC 8032. -/
def edSize : EdCurve → Nat
  | .ed25519 => 64
  | .ed448 => 114

/-- The algorithms of RFC 8032 for one key: variant, context, message. -/
structure EdCore where
  sign : EdAlg → Bytes → Bytes → Option Bytes
  ver : EdAlg → Bytes → Bytes → Bytes → Bool

/-- OpenSSL follows them. -/
structure EdFollows (E : EdEnv) (C : EdCore) (size : Nat) : Prop where
  announced : ∀ a c, (E.ossl a c).announced = size
  sign : ∀ a c m, (E.ossl a c).sign m = C.sign a (c.getD []) m
  ver : ∀ a c m s, (E.ossl a c).ver m s = C.ver a (c.getD []) m s
  size : ∀ a c m s, C.sign a c m = some s → s.length = size

/-- The signature a verification is about: the argument, otherwise that of C_VerifySignatureInit. -/
def edClaimed (given sig : Option Bytes) : Option Bytes := match given with | some s => some s | none => sig

end Spec

theorem edParse_spec (c : EdCurve) (param : Option EdParam) :
    (∀ a ctx, edParse c param = .ok (a, ctx) → Spec.edVariant c param = some (a, ctx.getD [])) ∧
    (∀ r, edParse c param = .error r → r = .mechanismParamInvalid ∧ Spec.edVariant c param = none) := by
  have hget : ∀ x : Bytes, (if x.length = 0 then none else some x).getD [] = x := by
    intro x
    split
    · rename_i h; rw [List.eq_nil_of_length_eq_zero h]; rfl
    · rfl
  cases c with
  | ed25519 =>
    cases param with
    | none =>
      refine ⟨fun a ctx h => ?_, fun r h => ?_⟩
      · simp [edParse, EdCurve.outLen] at h; obtain ⟨rfl, rfl⟩ := h; rfl
      · simp [edParse, EdCurve.outLen] at h
    | some p =>
      obtain ⟨f, x⟩ := p
      refine ⟨fun a ctx h => ?_, fun r h => ?_⟩
      · simp only [edParse, EdCurve.outLen] at h
        rw [if_pos (by decide)] at h
        injection h with h
        injection h with h1 h2
        rw [← h2, hget, ← h1]
        by_cases hf : f = 1
        · subst hf; rfl
        · rw [if_neg hf]
          unfold Spec.edVariant
          split <;> simp_all
      · simp only [edParse, EdCurve.outLen] at h
        rw [if_pos (by decide)] at h
        cases h
  | ed448 =>
    cases param with
    | none =>
      refine ⟨fun a ctx h => ?_, fun r h => ?_⟩
      · simp [edParse, EdCurve.outLen] at h
      · simp [edParse, EdCurve.outLen] at h; exact ⟨h.symm, rfl⟩
    | some p =>
      obtain ⟨f, x⟩ := p
      refine ⟨fun a ctx h => ?_, fun r h => ?_⟩
      · simp only [edParse, EdCurve.outLen] at h
        rw [if_neg (by decide), if_pos (by decide)] at h
        injection h with h
        injection h with h1 h2
        rw [← h2, hget, ← h1]
        by_cases hf : f = 1
        · subst hf; rfl
        · rw [if_neg hf]
          unfold Spec.edVariant
          split <;> simp_all
      · simp only [edParse, EdCurve.outLen] at h
        rw [if_neg (by decide), if_pos (by decide)] at h
        cases h

/-- The operation an initialisation makes. -/
structure EdMade (signs : Bool) (c : EdCurve) (param : Option EdParam) (sig : Option Bytes) (o : EdOp) : Prop where
  variant : Spec.edVariant c param = some (o.alg, o.context.getD [])
  len : o.outLen = Spec.edSize c
  final : o.finalized = false
  use : o.inUse = false
  hsigns : o.sigctx.signs = signs
  updates : o.sigctx.updates = false
  data : o.sigctx.data = none
  hsig : o.sigctx.signature = sig

theorem ed_made {E : EdEnv} {mode : SigMode} {signs : Bool} {c : EdCurve} {param : Option EdParam} {sig : Option Bytes} {o : EdOp}
    (h : EdOp.new E mode signs c param sig = .ok o) : EdMade signs c param sig o := by
  unfold EdOp.new at h
  split at h
  · cases h
  · rename_i alg ctx hp
    have hv := (edParse_spec c param).1 _ _ hp
    have hl : c.outLen = Spec.edSize c := by cases c <;> rfl
    split at h
    · cases h
    · simp only at h
      split at h
      · injection h with h
        subst h
        exact ⟨hv, hl, rfl, rfl, rfl, rfl, rfl, rfl⟩
      · rename_i g
        unfold OsslSig.setSignature at h
        cases signs with
        | true => simp only [if_true] at h; cases h
        | false =>
          simp only [Bool.false_eq_true, if_false, or_true, if_true] at h
          injection h with h
          subst h
          exact ⟨hv, hl, rfl, rfl, rfl, rfl, rfl, rfl⟩

/-- The operation after it was fed `d`. -/
def edFed (o : EdOp) (d : Bytes) : EdOp := { o with inUse := true, sigctx := { o.sigctx with data := some d } }

theorem ed_update {signs : Bool} {c : EdCurve} {param : Option EdParam} {sig : Option Bytes} {o : EdOp} (k : EdMade signs c param sig o) (p : Bytes) :
    (p.length ≤ 1024 * 1024 → o.update p = (.ok (), edFed o p)) ∧ (1024 * 1024 < p.length → o.update p = (.error .tokenResourceExceeded, { o with inUse := true })) := by
  unfold EdOp.update
  rw [k.final]
  simp only [Bool.false_eq_true, if_false, OsslSig.update, k.updates, Bool.not_false, if_true, OsslSig.store, k.data]
  refine ⟨fun h => ?_, fun h => ?_⟩
  · rw [if_neg (by unfold osslMaxBuffer; omega)]; simp only [edFed, k.final, k.updates]
  · rw [if_pos (by unfold osslMaxBuffer; omega)]

theorem ed_update_fed {signs : Bool} {c : EdCurve} {param : Option EdParam} {sig : Option Bytes} {o : EdOp} (k : EdMade signs c param sig o) (d p : Bytes) :
    ((d ++ p).length ≤ 1024 * 1024 → (edFed o d).update p = (.ok (), edFed o (d ++ p))) ∧
    (1024 * 1024 < (d ++ p).length → (edFed o d).update p = (.error .tokenResourceExceeded, edFed o d)) := by
  unfold EdOp.update
  simp only [edFed, k.final, Bool.false_eq_true, if_false, OsslSig.update, k.updates, Bool.not_false, if_true, OsslSig.store, List.length_append]
  refine ⟨fun h => ?_, fun h => ?_⟩
  · rw [if_neg (by unfold osslMaxBuffer; omega)]
  · rw [if_pos (by unfold osslMaxBuffer; omega)]

theorem ed_parts_fed {signs : Bool} {c : EdCurve} {param : Option EdParam} {sig : Option Bytes} {o : EdOp} (k : EdMade signs c param sig o) (ps : List Bytes) :
    ∀ d : Bytes, (d ++ ps.flatten).length ≤ 1024 * 1024 → (edFed o d).parts ps = (.ok (), edFed o (d ++ ps.flatten)) := by
  induction ps with
  | nil => intro d _; rw [List.flatten_nil, List.append_nil]; rfl
  | cons p ps ih =>
    intro d h
    rw [List.flatten_cons, ← List.append_assoc] at h ⊢
    unfold EdOp.parts
    rw [(ed_update_fed k d p).1 (by rw [List.length_append] at h; omega)]
    exact ih _ h

theorem ed_parts {signs : Bool} {c : EdCurve} {param : Option EdParam} {sig : Option Bytes} {o : EdOp} (k : EdMade signs c param sig o) (p : Bytes) (ps : List Bytes)
    (h : (p :: ps).flatten.length ≤ 1024 * 1024) : o.parts (p :: ps) = (.ok (), edFed o (p :: ps).flatten) := by
  rw [List.flatten_cons] at h ⊢
  unfold EdOp.parts
  rw [(ed_update k p).1 (by rw [List.length_append] at h; omega)]
  exact ed_parts_fed k ps p h

theorem ed_signFinal {E : EdEnv} {C : Spec.EdCore} {c : EdCurve} {param : Option EdParam} {sig : Option Bytes} {o : EdOp} (F : Spec.EdFollows E C (Spec.edSize c))
    (k : EdMade true c param sig o) (d s : Bytes) : ((edFed o d).signFinal E (Spec.edSize c)).1 = .ok s ↔ C.sign o.alg (o.context.getD []) d = some s := by
  unfold EdOp.signFinal
  simp only [edFed, k.final, Bool.not_true, Bool.false_eq_true, if_false, OsslSig.signFinal, OsslSig.sign, k.hsigns, k.updates, Bool.not_false, if_true, F.announced, Nat.lt_irrefl, F.sign]
  cases hc : C.sign o.alg (o.context.getD []) d with
  | none => simp
  | some s' =>
    have := F.size _ _ _ _ hc
    simp [this]

theorem ed_verifyFinal {E : EdEnv} {C : Spec.EdCore} {c : EdCurve} {param : Option EdParam} {sig given : Option Bytes} {o : EdOp} (F : Spec.EdFollows E C (Spec.edSize c))
    (k : EdMade false c param sig o) (d s : Bytes) (hg : Spec.edClaimed given sig = some s) :
    ((edFed o d).verifyFinal E given).1 = if C.ver o.alg (o.context.getD []) d s then .ok () else .error .signatureInvalid := by
  unfold EdOp.verifyFinal
  simp only [edFed, k.final, Bool.not_true, Bool.false_eq_true, if_false, OsslSig.verifyFinal, OsslSig.verify, k.hsigns, k.updates, Bool.not_false, if_true, F.ver]
  cases given with
  | some x =>
    have hx : x = s := by simpa [Spec.edClaimed] using hg
    subst hx
    by_cases hv : C.ver o.alg (o.context.getD []) d x = true
    · simp [hv]
    · simp [hv]
  | none =>
    have hx : sig = some s := hg
    simp only [k.hsig, hx]
    by_cases hv : C.ver o.alg (o.context.getD []) d s = true
    · simp [hv]
    · simp [hv]

/-- C_Sign makes exactly the signature of the variant for the curve and the parameter over the data (up to 1 MiB). -/
theorem C80_signs {E : EdEnv} {C : Spec.EdCore} {mode : SigMode} {c : EdCurve} {param : Option EdParam} {sig : Option Bytes} {o : EdOp} (F : Spec.EdFollows E C (Spec.edSize c))
    (h : EdOp.new E mode true c param sig = .ok o) {data : Bytes} (hl : data.length ≤ 1024 * 1024) (s : Bytes) :
    (o.sign E data o.outLen).1 = .ok s ↔ ∃ a ctx, Spec.edVariant c param = some (a, ctx) ∧ C.sign a ctx data = some s := by
  have k := ed_made h
  unfold EdOp.sign
  rw [k.use, k.final, (ed_update k data).1 hl, k.len]
  simp only [Bool.false_eq_true, if_false]
  rw [ed_signFinal F k]
  constructor
  · intro hs; exact ⟨_, _, k.variant, hs⟩
  · rintro ⟨a, ctx, h1, h2⟩
    rw [k.variant] at h1
    injection h1 with h1
    injection h1 with h1 h3
    rw [h1, h3]; exact h2

/-- A verification answers CKR_OK when the variant accepts the signature over the data, otherwise CKR_SIGNATURE_INVALID, whether the signature is an argument or was given first. -/
theorem C80_verifies {E : EdEnv} {C : Spec.EdCore} {mode : SigMode} {c : EdCurve} {param : Option EdParam} {sig given : Option Bytes} {o : EdOp} (F : Spec.EdFollows E C (Spec.edSize c))
    (h : EdOp.new E mode false c param sig = .ok o) {data s : Bytes} (hl : data.length ≤ 1024 * 1024) (hg : Spec.edClaimed given sig = some s) :
    ∃ a ctx, Spec.edVariant c param = some (a, ctx) ∧ (o.verify E data given).1 = if C.ver a ctx data s then .ok () else .error .signatureInvalid := by
  have k := ed_made h
  refine ⟨_, _, k.variant, ?_⟩
  unfold EdOp.verify
  rw [k.use, k.final, (ed_update k data).1 hl]
  simp only [Bool.false_eq_true, if_false]
  exact ed_verifyFinal F k data s hg

/-- Data in parts, in whatever pieces, is signed and verified like the same data at once. -/
theorem C80_parts {E : EdEnv} {mode : SigMode} {signs : Bool} {c : EdCurve} {param : Option EdParam} {sig : Option Bytes} {o : EdOp}
    (h : EdOp.new E mode signs c param sig = .ok o) (p : Bytes) (ps : List Bytes) (hl : (p :: ps).flatten.length ≤ 1024 * 1024) :
    (o.parts (p :: ps)).1 = .ok () ∧ (∀ n, (o.parts (p :: ps)).2.signFinal E n = o.sign E (p :: ps).flatten n) ∧
      ∀ given, (o.parts (p :: ps)).2.verifyFinal E given = o.verify E (p :: ps).flatten given := by
  have k := ed_made h
  have hp := ed_parts k p ps hl
  have hu := (ed_update k (p :: ps).flatten).1 hl
  refine ⟨by rw [hp], fun n => ?_, fun given => ?_⟩
  · unfold EdOp.sign
    rw [hp, k.use, k.final, hu]
    rfl
  · unfold EdOp.verify
    rw [hp, k.use, k.final, hu]
    rfl

/-- What one key signs, the same key accepts, with the same parameter. -/
theorem C80_accepted {E : EdEnv} {C : Spec.EdCore} {mode mode' : SigMode} {c : EdCurve} {param : Option EdParam} {sig sig' given : Option Bytes} {o o' : EdOp}
    (F : Spec.EdFollows E C (Spec.edSize c)) (law : ∀ a ctx m s, C.sign a ctx m = some s → C.ver a ctx m s = true) (h : EdOp.new E mode true c param sig = .ok o)
    (h' : EdOp.new E mode' false c param sig' = .ok o') {data s : Bytes} (hl : data.length ≤ 1024 * 1024) (hs : (o.sign E data o.outLen).1 = .ok s)
    (hg : Spec.edClaimed given sig' = some s) : (o'.verify E data given).1 = .ok () ∧ s.length = Spec.edSize c := by
  obtain ⟨a, ctx, h1, h2⟩ := (C80_signs F h hl s).mp hs
  obtain ⟨a', ctx', h3, h4⟩ := C80_verifies F h' hl hg
  rw [h1] at h3
  injection h3 with h3
  injection h3 with h3 h5
  subst h3; subst h5
  exact ⟨by rw [h4, law _ _ _ _ h2]; rfl, F.size _ _ _ _ h2⟩

/-- Which parameters are refused: Ed448 without one, and what OpenSSL does not take. -/
theorem C80_init (E : EdEnv) (mode : SigMode) (signs : Bool) (c : EdCurve) (param : Option EdParam) :
    (∃ o, EdOp.new E mode signs c param none = .ok o) ↔ (c = .ed448 → param ≠ none) ∧ ∀ a ctx, edParse c param = .ok (a, ctx) → E.takes a ctx = true := by
  have hnone : (∃ r, edParse c param = .error r) ↔ c = .ed448 ∧ param = none := by
    constructor
    · rintro ⟨r, hr⟩
      have := ((edParse_spec c param).2 r hr).2
      cases c with
      | ed25519 => cases param with
        | none => cases this
        | some p => obtain ⟨f, x⟩ := p; unfold Spec.edVariant at this; split at this <;> simp_all
      | ed448 => cases param with
        | none => exact ⟨rfl, rfl⟩
        | some p => obtain ⟨f, x⟩ := p; unfold Spec.edVariant at this; split at this <;> simp_all
    · rintro ⟨rfl, rfl⟩; exact ⟨.mechanismParamInvalid, rfl⟩
  unfold EdOp.new
  cases hp : edParse c param with
  | error r =>
    obtain ⟨h1, h2⟩ := hnone.mp ⟨r, hp⟩
    simp only
    refine ⟨fun ⟨o, ho⟩ => (by cases ho), fun ⟨h, _⟩ => absurd h2 (h h1)⟩
  | ok x =>
    obtain ⟨a, ctx⟩ := x
    simp only
    have hne : c = .ed448 → param ≠ none := fun h1 h2 => by
      obtain ⟨r, hr⟩ := hnone.mpr ⟨h1, h2⟩
      rw [hp] at hr; cases hr
    cases ht : E.takes a ctx with
    | true =>
      refine ⟨fun _ => ⟨hne, fun a' ctx' he => ?_⟩, fun _ => ⟨_, rfl⟩⟩
      injection he with he
      injection he with h1 h2
      rw [← h1, ← h2, ht]
    | false =>
      refine ⟨fun ⟨o, ho⟩ => (by cases ho), fun ⟨_, h⟩ => ?_⟩
      have := h a ctx rfl
      rw [ht] at this; cases this

/-- After a signature or a verification the operation is over. -/
theorem C80_finished {E : EdEnv} {mode : SigMode} {signs : Bool} {c : EdCurve} {param : Option EdParam} {sig : Option Bytes} {o : EdOp}
    (h : EdOp.new E mode signs c param sig = .ok o) {data : Bytes} (hl : data.length ≤ 1024 * 1024) (n : Nat) (given : Option Bytes) :
    (o.sign E data n).2.finalized = true ∧ (o.verify E data given).2.finalized = true ∧
    (∀ o' : EdOp, o'.finalized = true → ∀ d n g, (o'.update d).1 = .error .operationNotInitialized ∧ (o'.sign E d n).1 = .error .operationNotInitialized ∧
      (o'.signFinal E n).1 = .error .operationNotInitialized ∧ (o'.verify E d g).1 = .error .operationNotInitialized ∧ (o'.verifyFinal E g).1 = .error .operationNotInitialized) := by
  have k := ed_made h
  refine ⟨?_, ?_, ?_⟩
  · unfold EdOp.sign
    rw [k.use, k.final, (ed_update k data).1 hl]
    unfold EdOp.signFinal
    simp only [edFed, k.final, Bool.not_true, Bool.false_eq_true, if_false]
    split <;> rfl
  · unfold EdOp.verify
    rw [k.use, k.final, (ed_update k data).1 hl]
    unfold EdOp.verifyFinal
    simp only [edFed, k.final, Bool.not_true, Bool.false_eq_true, if_false]
    split <;> rfl
  · intro o' hf d n g
    unfold EdOp.update EdOp.sign EdOp.signFinal EdOp.verify EdOp.verifyFinal
    rw [hf]
    refine ⟨rfl, ?_, ?_, ?_, ?_⟩ <;> split <;> rfl

/-- A part that makes the data longer than 1 MiB is refused, but the operation goes on: C_SignFinal signs and C_VerifyFinal verifies the data without it. -/
theorem C80_lost_part_violation {E : EdEnv} {mode : SigMode} {signs : Bool} {c : EdCurve} {param : Option EdParam} {sig : Option Bytes} {o : EdOp}
    (h : EdOp.new E mode signs c param sig = .ok o) {p q : Bytes} (hp : p.length ≤ 1024 * 1024) (hq : 1024 * 1024 < p.length + q.length) :
    (o.parts [p, q]).1 = .error .tokenResourceExceeded ∧ (∀ n, (o.parts [p, q]).2.signFinal E n = o.sign E p n) ∧
      ∀ given, (o.parts [p, q]).2.verifyFinal E given = o.verify E p given := by
  have k := ed_made h
  have e : o.parts [p, q] = (.error .tokenResourceExceeded, edFed o p) := by
    unfold EdOp.parts
    rw [(ed_update k p).1 hp]
    simp only
    unfold EdOp.parts
    rw [(ed_update_fed k p q).2 (by rw [List.length_append]; exact hq)]
  rw [e]
  refine ⟨rfl, fun n => ?_, fun given => ?_⟩
  · unfold EdOp.sign
    rw [k.use, k.final, (ed_update k p).1 hp]
    rfl
  · unfold EdOp.verify
    rw [k.use, k.final, (ed_update k p).1 hp]
    rfl

/-- C_Sign with more than 1 MiB fails and leaves an operation that goes on: other data in parts is signed, although the standard ends the operation with every error of C_Sign but
CKR_BUFFER_TOO_SMALL. -/
theorem C80_alive_violation {E : EdEnv} {mode : SigMode} {c : EdCurve} {param : Option EdParam} {sig : Option Bytes} {o : EdOp}
    (h : EdOp.new E mode true c param sig = .ok o) {data q : Bytes} (hl : 1024 * 1024 < data.length) (hq : q.length ≤ 1024 * 1024) (n : Nat) :
    (o.sign E data n).1 = .error .tokenResourceExceeded ∧ (((o.sign E data n).2.update q).2.signFinal E n).1 = (o.sign E q n).1 := by
  have k := ed_made h
  have e : o.sign E data n = (.error .tokenResourceExceeded, { o with inUse := true }) := by
    unfold EdOp.sign
    rw [k.use, (ed_update k data).2 hl]
    simp only [k.final, Bool.false_eq_true, if_false]
  rw [e]
  refine ⟨rfl, ?_⟩
  have k' : ({ o with inUse := true } : EdOp).update q = (.ok (), edFed o q) := by
    rw [← (ed_update k q).1 hq]
    unfold EdOp.update
    rw [k.final]
    rfl
  rw [k']
  unfold EdOp.sign
  rw [k.use, k.final, (ed_update k q).1 hq]
  rfl

/-! Examples: a toy algorithm, and an OpenSSL that follows it. -/

def edToyCore (size : Nat) : Spec.EdCore where
  sign := fun _ ctx m => some ((ctx ++ m ++ List.replicate size 0).take size)
  ver := fun _ ctx m s => s == (ctx ++ m ++ List.replicate size 0).take size

def edToyEnv (size : Nat) : EdEnv where
  takes := fun a c => match a, c with | .ed25519, some _ => false | _, some x => decide (x.length ≤ 255) | _, none => true
  ossl := fun a c => ⟨size, fun m => (edToyCore size).sign a (c.getD []) m, fun m s => (edToyCore size).ver a (c.getD []) m s, fun _ => none, fun _ _ => false⟩

theorem edToy_follows (size : Nat) : Spec.EdFollows (edToyEnv size) (edToyCore size) size where
  announced := fun _ _ => rfl
  sign := fun _ _ _ => rfl
  ver := fun _ _ _ _ => rfl
  size := fun a c m s h => by
    simp only [edToyCore, Option.some.injEq] at h
    rw [← h, List.length_take, List.length_append, List.length_replicate]
    omega

/-- An Ed448 signature with a context, in parts, verified with the signature given first. -/
example : ∃ o o' s, EdOp.new (edToyEnv 114) .legacy true .ed448 (some ⟨0, [7]⟩) none = .ok o ∧ ((o.parts [[1, 2], [3]]).2.signFinal (edToyEnv 114) 114).1 = .ok s ∧
    s.take 4 = [7, 1, 2, 3] ∧ EdOp.new (edToyEnv 114) .legacy false .ed448 (some ⟨0, [7]⟩) (some s) = .ok o' ∧ (o'.verify (edToyEnv 114) [1, 2, 3] none).1 = .ok () ∧
    (o'.verify (edToyEnv 114) [1, 2] none).1 = .error .signatureInvalid := by
  refine ⟨_, _, [7, 1, 2, 3] ++ List.replicate 110 0, rfl, ?_, rfl, rfl, ?_, ?_⟩ <;> decide +kernel

/-- Too much data. -/
example : ∃ (p q : Bytes), p.length ≤ 1024 * 1024 ∧ 1024 * 1024 < p.length + q.length := ⟨[1], List.replicate (1024 * 1024) 0, by decide, by rw [List.length_replicate]; decide⟩

end Kry

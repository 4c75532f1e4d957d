import Verif.Model.PqSig

/-! C79: ML-DSA and SLH-DSA signatures.

The signature algorithms themselves are parameters.  What is proved is which bytes they are given: exactly the message M' of FIPS 204 and FIPS 205 for the mechanism, the
context and the data, in parts or at once; different contexts, modes, hashes and data give different M'; a signature over a hash made outside is the one the token makes when it hashes
itself. -/

namespace Kry

namespace Spec

/-- The encodings of the hash OIDs in FIPS 204, 5.4 and FIPS 205, 10.2.2. -/
def hashOid : PqHash → Option Bytes
  | .sha256 => some [0x06, 0x09, 0x60, 0x86, 0x48, 0x01, 0x65, 0x03, 0x04, 0x02, 0x01]
  | .sha384 => some [0x06, 0x09, 0x60, 0x86, 0x48, 0x01, 0x65, 0x03, 0x04, 0x02, 0x02]
  | .sha512 => some [0x06, 0x09, 0x60, 0x86, 0x48, 0x01, 0x65, 0x03, 0x04, 0x02, 0x03]
  | .sha224 => some [0x06, 0x09, 0x60, 0x86, 0x48, 0x01, 0x65, 0x03, 0x04, 0x02, 0x04]
  | .sha3_224 => some [0x06, 0x09, 0x60, 0x86, 0x48, 0x01, 0x65, 0x03, 0x04, 0x02, 0x07]
  | .sha3_256 => some [0x06, 0x09, 0x60, 0x86, 0x48, 0x01, 0x65, 0x03, 0x04, 0x02, 0x08]
  | .sha3_384 => some [0x06, 0x09, 0x60, 0x86, 0x48, 0x01, 0x65, 0x03, 0x04, 0x02, 0x09]
  | .sha3_512 => some [0x06, 0x09, 0x60, 0x86, 0x48, 0x01, 0x65, 0x03, 0x04, 0x02, 0x0a]
  | _ => none

/-- The lengths of the digests (FIPS 180-4, FIPS 202). -/
def digestLen : PqHash → Option Nat
  | .sha1 => some 20
  | .sha224 => some 28
  | .sha256 => some 32
  | .sha384 => some 48
  | .sha512 => some 64
  | .sha512_224 => some 28
  | .sha512_256 => some 32
  | .sha3_224 => some 28
  | .sha3_256 => some 32
  | .sha3_384 => some 48
  | .sha3_512 => some 64
  | .other => none

/-- M' for a message (FIPS 204, algorithm 2; FIPS 205, algorithm 22). -/
def pureMsg (ctx msg : Bytes) : Bytes := 0 :: UInt8.ofNat ctx.length :: (ctx ++ msg)

/-- M' for a digest (FIPS 204, algorithm 4; FIPS 205, algorithm 23). -/
def hashMsg (ctx : Bytes) (h : PqHash) (digest : Bytes) : Option Bytes :=
  match hashOid h with
  | some oid => some (1 :: UInt8.ofNat ctx.length :: (ctx ++ oid ++ digest))
  | none => none

/-- The context a parameter asks for. -/
def ctxOf : Option PqParam → Bytes
  | some p => p.context
  | none => []

/-- The M' for a mechanism, its parameter and the data handed over: a digest for CKM_HASH_ML_DSA, of the length of its hash. -/
def toSign (H : PqHash → Bytes → Bytes) (mech : PqMech) (param : Option PqParam) (data : Bytes) : Option Bytes :=
  match mech, param with
  | .pure, _ => some (pureMsg (ctxOf param) data)
  | .hashed h, _ => hashMsg (ctxOf param) h (H h data)
  | .prehash, some p => if digestLen p.hash = some data.length then hashMsg p.context p.hash data else none
  | _, _ => none

/-- Whether a parameter asks for a deterministic signature. -/
def wantsDet : Option PqParam → Bool
  | some p => p.hedge == 2
  | none => false

/-- The algorithms of the standards over M' (FIPS 204, algorithms 7 and 8; FIPS 205, algorithms 19 and 20). -/
structure PqCore where
  sign : Bool → Bytes → Option Bytes
  ver : Bytes → Bytes → Bool

/-- OpenSSL follows the standards: it adds the prefix of `pureMsg` unless the encoding is raw, and the hashes have their lengths. -/
structure Follows (E : PqEnv) (C : PqCore) (size : Nat) : Prop where
  announced : ∀ t, (E.ossl t).announced = size
  sign : ∀ t m, (E.ossl t).sign m = C.sign t.deterministic (if t.raw then m else pureMsg (t.context.getD []) m)
  signFed : ∀ t m, (E.ossl t).signFed m = C.sign t.deterministic (if t.raw then m else pureMsg (t.context.getD []) m)
  ver : ∀ t m s, (E.ossl t).ver m s = C.ver (if t.raw then m else pureMsg (t.context.getD []) m) s
  verFed : ∀ t m s, (E.ossl t).verFed m s = C.ver (if t.raw then m else pureMsg (t.context.getD []) m) s
  size : ∀ d m s, C.sign d m = some s → s.length = size
  hash : ∀ h n m, digestLen h = some n → (E.hash h m).length = n

/-- Data that is collected by the token is limited (`collects`: OpenSSL cannot take it in parts). -/
def pqFits (mech : PqMech) (collects : Bool) (data : Bytes) : Prop := mech = .pure → collects = true → data.length ≤ 1024 * 1024

end Spec

theorem digestLen_eq (h : PqHash) : Spec.digestLen h = h.size := by cases h <;> rfl

/-- The context as the code keeps it. -/
def keptCtx (param : Option PqParam) : Option Bytes := if (Spec.ctxOf param).length = 0 then none else some (Spec.ctxOf param)

theorem keptCtx_getD (param : Option PqParam) : (keptCtx param).getD [] = Spec.ctxOf param := by
  unfold keptCtx
  split
  · rename_i h; rw [List.eq_nil_of_length_eq_zero h]; rfl
  · rfl

/-- The operation C_SignInit, C_VerifyInit or C_VerifySignatureInit makes. -/
structure PqMade (probe signs : Bool) (mech : PqMech) (set : PqSet) (param : Option PqParam) (sig : Option Bytes) (o : PqOp) : Prop where
  short : (Spec.ctxOf param).length ≤ 255
  final : o.finalized = false
  use : o.inUse = false
  hmech : o.mech = mech
  told : o.told = ⟨mech != .pure, keptCtx param, Spec.wantsDet param⟩
  ctx : o.pars.context = keptCtx param
  hsigns : o.sigctx.signs = signs
  mode : o.sigctx.mode = .message
  updates : o.sigctx.updates = set.updates probe
  data : o.sigctx.data = none
  fed : o.sigctx.fed = []
  prehash : mech = .prehash → ∃ p, param = some p ∧ o.pars.hash = p.hash ∧ p.hash.size = some o.hashsize
  hashed : ∀ h, mech = .hashed h → o.pars.hash = h ∧ h.size = some o.hashsize ∧ o.hasher = some []
  known : mech = .pure ∨ mech = .prehash ∨ ∃ h, mech = .hashed h
  unsig : sig = none → o.signature = none ∧ o.sigctx.signature = none ∧ o.sigctx.given = none
  hsig : signs = false → ∀ s, sig = some s → s.length = set.sigSize ∧ (mech = .pure → o.sigctx.signature = if set.updates probe then none else some s) ∧
    (mech = .pure → o.sigctx.given = if set.updates probe then some s else none) ∧ (mech ≠ .pure → o.signature = some s)

theorem pars_new {mech : PqMech} {set : PqSet} {param : Option PqParam} {p : PqPars} (h : PqPars.new mech set param = .ok p) :
    (Spec.ctxOf param).length ≤ 255 ∧ p.context = keptCtx param ∧ (p.hedge == 2) = Spec.wantsDet param ∧ p.set = set ∧
      p.hash = (if mech = .prehash then (match param with | some q => q.hash | none => .other) else .other) := by
  unfold PqPars.new at h
  cases param with
  | none =>
    simp only at h
    injection h with h
    subst h
    refine ⟨by simp [Spec.ctxOf], rfl, rfl, rfl, ?_⟩
    simp
  | some q =>
    simp only at h
    split at h
    · cases h
    · split at h
      · cases h
      · split at h
        · cases h
        · rename_i h3
          injection h with h
          subst h
          refine ⟨by simp only [Spec.ctxOf]; omega, rfl, rfl, rfl, rfl⟩

theorem new_made {probe signs : Bool} {mech : PqMech} {set : PqSet} {param : Option PqParam} {sig : Option Bytes} {o : PqOp}
    (h : PqOp.new probe signs mech set param sig = .ok o) : PqMade probe signs mech set param sig o := by
  unfold PqOp.new at h
  split at h
  · cases h
  · rename_i pars hp
    obtain ⟨h1, h2, h3, h4, h5⟩ := pars_new hp
    simp only at h
    split at h
    · cases h
    · rename_i o1 ho1
      have key : PqMade probe signs mech set param none o1 ∧ o1.pars.set = set := by
        unfold PqOp.setup at ho1
        simp only at ho1
        cases mech with
        | pure =>
          simp only at ho1
          injection ho1 with ho1
          subst ho1
          exact ⟨{ short := h1, final := rfl, use := rfl, hmech := rfl, told := by simp only [PqPars.told, h2, h3], ctx := h2, hsigns := rfl, mode := rfl, updates := rfl, data := rfl, fed := rfl
                   prehash := fun hc => (by cases hc), hashed := fun h hc => (by cases hc), known := .inl rfl, unsig := fun _ => ⟨rfl, rfl, rfl⟩, hsig := fun _ s hc => (by cases hc) }, h4⟩
        | prehash =>
          simp only at ho1
          split at ho1
          · cases ho1
          · rename_i n hn
            injection ho1 with ho1
            subst ho1
            refine ⟨{ short := h1, final := rfl, use := rfl, hmech := rfl, told := by simp only [PqPars.told, h2, h3], ctx := h2, hsigns := rfl, mode := rfl, updates := rfl, data := rfl, fed := rfl
                      prehash := ?_, hashed := fun h hc => (by cases hc), known := .inr (.inl rfl), unsig := fun _ => ⟨rfl, rfl, rfl⟩, hsig := fun _ s hc => (by cases hc) }, h4⟩
            intro _
            rw [if_pos rfl] at h5
            cases param with
            | none => simp only at h5; rw [h5] at hn; cases hn
            | some q => exact ⟨q, rfl, h5, by rw [← hn, h5]⟩
        | hashed hh =>
          simp only at ho1
          split at ho1
          · cases ho1
          · rename_i n hn
            injection ho1 with ho1
            subst ho1
            refine ⟨{ short := h1, final := rfl, use := rfl, hmech := rfl, told := by simp only [PqPars.told, h2, h3], ctx := h2, hsigns := rfl, mode := rfl, updates := rfl, data := rfl, fed := rfl
                      prehash := fun hc => (by cases hc), hashed := ?_, known := .inr (.inr ⟨hh, rfl⟩), unsig := fun _ => ⟨rfl, rfl, rfl⟩, hsig := fun _ s hc => (by cases hc) }, h4⟩
            intro h' he
            injection he with he
            subst he
            exact ⟨rfl, hn, rfl⟩
        | shake => cases ho1
        | other => cases ho1
      obtain ⟨k, kset⟩ := key
      have noSig : (signs = true ∨ sig = none) → PqMade probe signs mech set param sig o1 := fun hc =>
        { k with
          unsig := fun _ => k.unsig rfl
          hsig := fun hs s he => by
            rcases hc with hc | hc
            · rw [hs] at hc; cases hc
            · rw [he] at hc; cases hc }
      split at h
      · rename_i hsg
        injection h with h
        subst h
        exact noSig (.inl hsg)
      · rename_i hsg
        have hsf : signs = false := by cases signs with | true => exact absurd rfl hsg | false => rfl
        subst hsf
        cases sig with
        | none =>
          simp only at h
          injection h with h
          subst h
          exact noSig (.inr rfl)
        | some s =>
          simp only at h
          unfold PqOp.setSignature at h
          rw [kset] at h
          split at h
          · cases h
          · rename_i hl
            have hl' : s.length = set.sigSize := Decidable.of_not_not hl
            split at h
            · rename_i hm
              unfold OsslSig.setSignature at h
              rw [k.hsigns] at h
              have hmp : mech = .pure := by rw [← k.hmech]; exact hm
              simp only [Bool.false_eq_true, if_false, k.mode, k.updates] at h
              by_cases hu : set.updates probe = true
              · rw [if_neg (by simp [hu])] at h
                simp only at h
                injection h with h
                subst h
                exact { k with
                  hsigns := rfl
                  mode := rfl
                  updates := rfl
                  unsig := fun hc => (by cases hc)
                  hsig := fun _ s' he => by
                    injection he with he
                    subst he
                    refine ⟨hl', fun _ => ?_, fun _ => ?_, fun hc => absurd hmp hc⟩
                    · rw [if_pos hu]; exact (k.unsig rfl).2.1
                    · rw [if_pos hu] }
              · have hu' : set.updates probe = false := by simpa using hu
                rw [if_pos (by simp [hu'])] at h
                simp only at h
                injection h with h
                subst h
                exact { k with
                  hsigns := rfl
                  mode := rfl
                  updates := rfl
                  unsig := fun hc => (by cases hc)
                  hsig := fun _ s' he => by
                    injection he with he
                    subst he
                    refine ⟨hl', fun _ => ?_, fun _ => ?_, fun hc => absurd hmp hc⟩
                    · rw [if_neg hu]
                    · rw [if_neg hu]; exact (k.unsig rfl).2.2 }
            · rename_i hm
              injection h with h
              subst h
              exact { k with
                unsig := fun hc => (by cases hc)
                hsig := fun _ s' he => by
                  injection he with he
                  subst he
                  exact ⟨hl', fun hc => absurd (by rw [k.hmech]; exact hc) hm, fun hc => absurd (by rw [k.hmech]; exact hc) hm, fun _ => rfl⟩ }

/-- The M' the code computes is that of the standards, for digests of the right length. -/
theorem mPrime_spec {p : PqPars} {param : Option PqParam} {hmsg : Bytes} (hc : p.context = keptCtx param) :
    (p.hash.size = some hmsg.length → p.mPrime hmsg = match Spec.hashMsg (Spec.ctxOf param) p.hash hmsg with | some m => .ok m | none => .error .mechanismParamInvalid) ∧
    (p.hash.size ≠ some hmsg.length → ∀ m, p.mPrime hmsg ≠ .ok m) := by
  have hctx : pqCtxBytes p.context = UInt8.ofNat (Spec.ctxOf param).length :: Spec.ctxOf param := by
    rw [hc]
    unfold keptCtx
    split
    · rename_i h; rw [List.eq_nil_of_length_eq_zero h]; rfl
    · rfl
  refine ⟨fun hl => ?_, fun hl m => ?_⟩
  · unfold PqPars.mPrime Spec.hashMsg
    rw [hctx]
    generalize hh : p.hash = h at hl
    rw [hl]
    cases h <;> simp [PqHash.arc, Spec.hashOid, derTlv, derLen, List.append_assoc]
  · unfold PqPars.mPrime
    split
    · intro h; cases h
    · rw [if_pos hl]
      intro h; cases h

/-- The operation `o` after it was fed `d`. -/
def fedOp (o : PqOp) (d : Bytes) : PqOp :=
  match o.mech with
  | .pure => { o with inUse := true, sigctx := if o.sigctx.updates then { o.sigctx with fed := d } else { o.sigctx with data := some d } }
  | _ => { o with inUse := true, hasher := some d }

theorem fedOp_mech (o : PqOp) (d : Bytes) : (fedOp o d).mech = o.mech ∧ (fedOp o d).finalized = o.finalized ∧ (fedOp o d).inUse = true ∧ (fedOp o d).pars = o.pars ∧
    (fedOp o d).told = o.told := by
  unfold fedOp
  split <;> exact ⟨rfl, rfl, rfl, rfl, rfl⟩

theorem update_fed {probe signs : Bool} {mech : PqMech} {set : PqSet} {param : Option PqParam} {sig : Option Bytes} {o : PqOp}
    (k : PqMade probe signs mech set param sig o) (hm : mech ≠ .prehash) (d p : Bytes) :
    (Spec.pqFits mech (!set.updates probe) (d ++ p) → (fedOp o d).update p = (.ok (), fedOp o (d ++ p))) ∧
    (¬ Spec.pqFits mech (!set.updates probe) (d ++ p) → (fedOp o d).update p = (.error .deviceError, { fedOp o d with finalized := true })) := by
  rcases k.known with hk | hk | ⟨h, hk⟩
  · subst hk
    have hmo := k.hmech
    unfold PqOp.update
    rw [(fedOp_mech o d).2.1, k.final]
    simp only [Bool.false_eq_true, if_false]
    by_cases hu : set.updates probe = true
    · refine ⟨fun _ => ?_, fun hc => absurd (fun _ hb => by rw [hu] at hb; cases hb) hc⟩
      simp [fedOp, hmo, k.final, k.updates, hu, OsslSig.update]
    · have hu' : set.updates probe = false := by simpa using hu
      refine ⟨fun hf => ?_, fun hc => ?_⟩
      · have hl := hf rfl (by simp [hu'])
        rw [List.length_append] at hl
        have hl' : ¬ osslMaxBuffer < d.length + p.length := by unfold osslMaxBuffer; omega
        simp [fedOp, hmo, k.final, k.updates, hu', OsslSig.update, OsslSig.store, hl']
      · have hl' : osslMaxBuffer < d.length + p.length := by
          unfold osslMaxBuffer
          refine Nat.lt_of_not_le fun hle => hc fun _ _ => ?_
          rw [List.length_append]; omega
        simp [fedOp, hmo, k.final, k.updates, hu', OsslSig.update, OsslSig.store, hl', OsslErr.rv]
  · exact absurd hk hm
  · subst hk
    have hmo := k.hmech
    refine ⟨fun _ => ?_, fun hc => absurd (fun hb => by cases hb) hc⟩
    unfold PqOp.update
    rw [(fedOp_mech o d).2.1, k.final]
    simp [fedOp, hmo, k.final]

theorem update_made {probe signs : Bool} {mech : PqMech} {set : PqSet} {param : Option PqParam} {sig : Option Bytes} {o : PqOp}
    (k : PqMade probe signs mech set param sig o) (hm : mech ≠ .prehash) (p : Bytes) :
    (Spec.pqFits mech (!set.updates probe) p → o.update p = (.ok (), fedOp o p)) ∧
    (¬ Spec.pqFits mech (!set.updates probe) p → (o.update p).1 = .error .deviceError ∧ (o.update p).2.finalized = true) := by
  rcases k.known with hk | hk | ⟨h, hk⟩
  · subst hk
    have hmo := k.hmech
    unfold PqOp.update
    rw [k.final]
    simp only [Bool.false_eq_true, if_false]
    by_cases hu : set.updates probe = true
    · refine ⟨fun _ => ?_, fun hc => absurd (fun _ hb => by rw [hu] at hb; cases hb) hc⟩
      simp [fedOp, hmo, k.final, k.updates, hu, OsslSig.update, k.fed]
    · have hu' : set.updates probe = false := by simpa using hu
      refine ⟨fun hf => ?_, fun hc => ?_⟩
      · have hl := hf rfl (by simp [hu'])
        have hl' : ¬ osslMaxBuffer < p.length := by unfold osslMaxBuffer; omega
        simp [fedOp, hmo, k.final, k.updates, hu', OsslSig.update, OsslSig.store, hl', k.data]
      · have hl' : osslMaxBuffer < p.length := by
          unfold osslMaxBuffer
          exact Nat.lt_of_not_le fun hle => hc fun _ _ => hle
        simp [hmo, k.final, k.updates, hu', OsslSig.update, OsslSig.store, hl', OsslErr.rv, k.data]
  · exact absurd hk hm
  · subst hk
    have hmo := k.hmech
    refine ⟨fun _ => ?_, fun hc => absurd (fun hb => by cases hb) hc⟩
    unfold PqOp.update
    rw [k.final]
    simp [fedOp, hmo, k.final, (k.hashed h rfl).2.2]

theorem fits_mono {mech : PqMech} {c : Bool} {a b : Bytes} (h : Spec.pqFits mech c (a ++ b)) : Spec.pqFits mech c a := by
  intro h1 h2
  have := h h1 h2
  rw [List.length_append] at this
  omega

theorem parts_fed {probe signs : Bool} {mech : PqMech} {set : PqSet} {param : Option PqParam} {sig : Option Bytes} {o : PqOp}
    (k : PqMade probe signs mech set param sig o) (hm : mech ≠ .prehash) (ps : List Bytes) : ∀ d : Bytes,
    (Spec.pqFits mech (!set.updates probe) (d ++ ps.flatten) → (fedOp o d).parts ps = (.ok (), fedOp o (d ++ ps.flatten))) ∧
    (Spec.pqFits mech (!set.updates probe) d → ¬ Spec.pqFits mech (!set.updates probe) (d ++ ps.flatten) →
      ((fedOp o d).parts ps).1 = .error .deviceError ∧ ((fedOp o d).parts ps).2.finalized = true) := by
  induction ps with
  | nil =>
    intro d
    rw [List.flatten_nil, List.append_nil]
    exact ⟨fun _ => rfl, fun h1 h2 => absurd h1 h2⟩
  | cons p ps ih =>
    intro d
    rw [List.flatten_cons, ← List.append_assoc]
    have hu := update_fed k hm d p
    unfold PqOp.parts
    refine ⟨fun hf => ?_, fun _ hn => ?_⟩
    · rw [hu.1 (fits_mono hf)]
      exact (ih (d ++ p)).1 hf
    · by_cases hf : Spec.pqFits mech (!set.updates probe) (d ++ p)
      · rw [hu.1 hf]
        exact (ih (d ++ p)).2 hf hn
      · rw [hu.2 hf]
        exact ⟨rfl, rfl⟩

theorem parts_made {probe signs : Bool} {mech : PqMech} {set : PqSet} {param : Option PqParam} {sig : Option Bytes} {o : PqOp}
    (k : PqMade probe signs mech set param sig o) (hm : mech ≠ .prehash) (p : Bytes) (ps : List Bytes) :
    (Spec.pqFits mech (!set.updates probe) (p :: ps).flatten → o.parts (p :: ps) = (.ok (), fedOp o (p :: ps).flatten)) ∧
    (¬ Spec.pqFits mech (!set.updates probe) (p :: ps).flatten → (o.parts (p :: ps)).1 = .error .deviceError ∧ (o.parts (p :: ps)).2.finalized = true) := by
  rw [List.flatten_cons]
  have hu := update_made k hm p
  unfold PqOp.parts
  refine ⟨fun hf => ?_, fun hn => ?_⟩
  · rw [hu.1 (fits_mono hf)]
    exact (parts_fed k hm ps p).1 hf
  · by_cases hf : Spec.pqFits mech (!set.updates probe) p
    · rw [hu.1 hf]
      exact (parts_fed k hm ps p).2 hf hn
    · have := hu.2 hf
      generalize o.update p = x at this
      obtain ⟨x1, x2⟩ := x
      simp only at this
      rw [this.1]
      exact ⟨rfl, this.2⟩

theorem signHash_spec {probe : Bool} {mech : PqMech} {set : PqSet} {param : Option PqParam} {sig : Option Bytes} {o : PqOp} {E : PqEnv} {C : Spec.PqCore}
    (F : Spec.Follows E C set.sigSize) (hraw : mech ≠ .pure) (htold : o.told = ⟨mech != .pure, keptCtx param, Spec.wantsDet param⟩) (hctx : o.pars.context = keptCtx param)
    (hs : o.sigctx.signs = true) {hmsg : Bytes} (hl : o.pars.hash.size = some hmsg.length) (s : Bytes) :
    o.signHash E hmsg set.sigSize = .ok s ↔ ∃ m, Spec.hashMsg (Spec.ctxOf param) o.pars.hash hmsg = some m ∧ C.sign (Spec.wantsDet param) m = some s := by
  unfold PqOp.signHash
  rw [(mPrime_spec hctx).1 hl]
  cases hm : Spec.hashMsg (Spec.ctxOf param) o.pars.hash hmsg with
  | none => simp
  | some m =>
    have hne : (mech != PqMech.pure) = true := by simpa using hraw
    simp only [OsslSig.sign, hs, F.announced, F.sign, htold, hne, Bool.not_true, Bool.false_eq_true, if_false, Nat.lt_irrefl, if_true]
    cases hc : C.sign (Spec.wantsDet param) m with
    | none => simp [hc]
    | some s' =>
      have := F.size _ _ _ hc
      simp [this, hc]

theorem signFinal_spec {probe : Bool} {mech : PqMech} {set : PqSet} {param : Option PqParam} {sig : Option Bytes} {o : PqOp} {E : PqEnv} {C : Spec.PqCore}
    (F : Spec.Follows E C set.sigSize) (k : PqMade probe true mech set param sig o) (hm : mech ≠ .prehash) (d s : Bytes) :
    ((fedOp o d).signFinal E set.sigSize).1 = .ok s ↔ ∃ m, Spec.toSign E.hash mech param d = some m ∧ C.sign (Spec.wantsDet param) m = some s := by
  have hmo := k.hmech
  rcases k.known with hk | hk | ⟨h, hk⟩
  · subst hk
    unfold PqOp.signFinal fedOp
    rw [hmo]
    simp only [k.final, Bool.not_true, Bool.false_eq_true, if_false, hmo, Spec.toSign, digestLen_eq, Option.some.injEq, exists_eq_left', k.updates, k.told]
    by_cases hu : set.updates probe = true
    · simp only [hu, if_true, OsslSig.signFinal, k.hsigns, k.updates, Bool.not_true, Bool.false_eq_true, if_false, F.signFed]
      simp only [bne_self_eq_false, Bool.false_eq_true, if_false, keptCtx_getD]
      cases hc : C.sign (Spec.wantsDet param) (Spec.pureMsg (Spec.ctxOf param) d) with
      | none => simp
      | some s' =>
        have := F.size _ _ _ hc
        simp [this]
    · have hu' : set.updates probe = false := by simpa using hu
      simp only [hu', OsslSig.signFinal, OsslSig.sign, k.hsigns, k.updates, Bool.not_true, Bool.not_false, Bool.false_eq_true, if_false, if_true, F.sign, F.announced, Nat.lt_irrefl]
      simp only [bne_self_eq_false, Bool.false_eq_true, if_false, keptCtx_getD]
      cases hc : C.sign (Spec.wantsDet param) (Spec.pureMsg (Spec.ctxOf param) d) with
      | none => simp
      | some s' =>
        have := F.size _ _ _ hc
        simp [this]
  · exact absurd hk hm
  · subst hk
    obtain ⟨h1, h2, h3⟩ := k.hashed h rfl
    have hl := F.hash h _ d (by rw [digestLen_eq]; exact h2)
    unfold PqOp.signFinal fedOp
    rw [hmo]
    simp only [k.final, Bool.not_true, Bool.false_eq_true, if_false, hmo, Spec.toSign, digestLen_eq]
    have := signHash_spec (probe := probe) (sig := sig) (o := { o with inUse := true, finalized := true, hasher := some d }) F (by intro hc; cases hc) k.told k.ctx k.hsigns (hmsg := E.hash h d)
      (by rw [hl]; exact h1 ▸ h2) s
    simp only [h1] at this
    rw [← this, hmo]

/-- The signature a verification is about: the argument (C_Verify, C_VerifyFinal), otherwise that of C_VerifySignatureInit. -/
def Spec.claimed (given sig : Option Bytes) : Option Bytes := match given with | some s => some s | none => sig

theorem verifyHash_spec {mech : PqMech} {set : PqSet} {param : Option PqParam} {o : PqOp} {E : PqEnv} {C : Spec.PqCore}
    (F : Spec.Follows E C set.sigSize) (hraw : mech ≠ .pure) (htold : o.told = ⟨mech != .pure, keptCtx param, Spec.wantsDet param⟩) (hctx : o.pars.context = keptCtx param)
    (hs : o.sigctx.signs = false) {hmsg s : Bytes} {given : Option Bytes} (hg : Spec.claimed given o.signature = some s) (hl : o.pars.hash.size = some hmsg.length) :
    o.verifyHash E hmsg given = match Spec.hashMsg (Spec.ctxOf param) o.pars.hash hmsg with
      | some m => if C.ver m s then .ok () else .error .deviceError
      | none => .error .mechanismParamInvalid := by
  unfold PqOp.verifyHash
  rw [(mPrime_spec hctx).1 hl]
  cases hm : Spec.hashMsg (Spec.ctxOf param) o.pars.hash hmsg with
  | none => rfl
  | some m =>
    have hne : (mech != PqMech.pure) = true := by simpa using hraw
    have hg' : (given.orElse fun _ => o.signature) = some s := by
      cases given with
      | none => exact hg
      | some x => exact hg
    simp only [hg', OsslSig.verify, hs, F.ver, htold, hne, Bool.false_eq_true, if_false, if_true]
    by_cases hv : C.ver m s = true
    · simp [hv]
    · simp [hv, OsslErr.rv]

theorem verifyFinal_spec {probe : Bool} {mech : PqMech} {set : PqSet} {param : Option PqParam} {sig : Option Bytes} {o : PqOp} {E : PqEnv} {C : Spec.PqCore}
    (F : Spec.Follows E C set.sigSize) (k : PqMade probe false mech set param sig o) (hm : mech ≠ .prehash) (d s : Bytes) {given : Option Bytes}
    (hg : Spec.claimed given sig = some s) :
    ((fedOp o d).verifyFinal E given).1 = match Spec.toSign E.hash mech param d with
      | some m => if C.ver m s then .ok () else .error .deviceError
      | none => .error .mechanismParamInvalid := by
  have hmo := k.hmech
  rcases k.known with hk | hk | ⟨h, hk⟩
  · subst hk
    unfold PqOp.verifyFinal fedOp
    rw [hmo]
    simp only [k.final, Bool.not_true, Bool.false_eq_true, if_false, hmo, Spec.toSign, digestLen_eq, k.updates, k.told]
    by_cases hu : set.updates probe = true
    · simp only [hu, if_true, OsslSig.verifyFinal, k.hsigns, k.updates, k.mode, Bool.not_true, Bool.false_eq_true, if_false, F.verFed, reduceCtorEq]
      simp only [bne_self_eq_false, Bool.false_eq_true, if_false, keptCtx_getD]
      cases given with
      | some x =>
        have hx : x = s := by simpa [Spec.claimed] using hg
        subst hx
        by_cases hv : C.ver (Spec.pureMsg (Spec.ctxOf param) d) x = true
        · simp [hv]
        · simp [hv, OsslErr.rv]
      | none =>
        have hx : sig = some s := hg
        have := (k.hsig rfl s hx).2.2.1 rfl
        rw [if_pos hu] at this
        simp only [this]
        by_cases hv : C.ver (Spec.pureMsg (Spec.ctxOf param) d) s = true
        · simp [hv]
        · simp [hv, OsslErr.rv]
    · have hu' : set.updates probe = false := by simpa using hu
      simp only [hu', OsslSig.verifyFinal, OsslSig.verify, k.hsigns, k.updates, Bool.not_false, Bool.false_eq_true, if_false, if_true, F.ver]
      simp only [bne_self_eq_false, Bool.false_eq_true, if_false, keptCtx_getD]
      cases given with
      | some x =>
        have hx : x = s := by simpa [Spec.claimed] using hg
        subst hx
        by_cases hv : C.ver (Spec.pureMsg (Spec.ctxOf param) d) x = true
        · simp [hv]
        · simp [hv, OsslErr.rv]
      | none =>
        have hx : sig = some s := hg
        have := (k.hsig rfl s hx).2.1 rfl
        rw [if_neg hu] at this
        simp only [this]
        by_cases hv : C.ver (Spec.pureMsg (Spec.ctxOf param) d) s = true
        · simp [hv]
        · simp [hv, OsslErr.rv]
  · exact absurd hk hm
  · subst hk
    obtain ⟨h1, h2, h3⟩ := k.hashed h rfl
    have hl := F.hash h _ d (by rw [digestLen_eq]; exact h2)
    unfold PqOp.verifyFinal fedOp
    rw [hmo]
    simp only [k.final, Bool.not_true, Bool.false_eq_true, if_false, hmo, Spec.toSign, digestLen_eq]
    have hg' : Spec.claimed given o.signature = some s := by
      cases given with
      | some x => exact hg
      | none => exact (k.hsig rfl s hg).2.2.2 (by intro hc; cases hc)
    have := verifyHash_spec (o := { o with inUse := true, finalized := true, hasher := some d }) F (by intro hc; cases hc) k.told k.ctx k.hsigns hg' (hmsg := E.hash h d)
      (by rw [hl]; exact h1 ▸ h2)
    simp only [h1] at this
    rw [← this, hmo]

/-- C_SignInit and C_Sign make exactly the signature of the standards over the mechanism's M'. -/
theorem C79_signs {probe : Bool} {mech : PqMech} {set : PqSet} {param : Option PqParam} {sig : Option Bytes} {o : PqOp} {E : PqEnv} {C : Spec.PqCore}
    (F : Spec.Follows E C set.sigSize) (h : PqOp.new probe true mech set param sig = .ok o) {data : Bytes} (hf : Spec.pqFits mech (!set.updates probe) data) (s : Bytes) :
    (o.sign E data set.sigSize).1 = .ok s ↔ ∃ m, Spec.toSign E.hash mech param data = some m ∧ C.sign (Spec.wantsDet param) m = some s := by
  have k := new_made h
  unfold PqOp.sign
  rw [k.use, k.final, k.hmech]
  simp only [Bool.false_eq_true, if_false]
  by_cases hm : mech = .prehash
  · subst hm
    obtain ⟨p, hp, h1, h2⟩ := k.prehash rfl
    subst hp
    rw [if_pos rfl]
    simp only [Spec.toSign, digestLen_eq]
    by_cases hl : data.length = o.hashsize
    · rw [if_neg (by simpa using hl), if_pos (by rw [h2, hl])]
      have := signHash_spec (probe := probe) (sig := sig) (o := { o with finalized := true }) F (by intro hc; cases hc) k.told k.ctx k.hsigns (hmsg := data)
        (by show o.pars.hash.size = _; rw [h1, h2, hl]) s
      simp only [h1] at this
      exact this
    · rw [if_pos hl, if_neg (by rw [h2]; intro hc; injection hc with hc; exact hl hc.symm)]
      simp
  · rw [if_neg hm, (update_made k hm data).1 hf]
    exact signFinal_spec F k hm data s

/-- A verification answers CKR_OK exactly when the standards accept the signature for the mechanism's M'. -/
theorem C79_verifies {probe : Bool} {mech : PqMech} {set : PqSet} {param : Option PqParam} {sig : Option Bytes} {o : PqOp} {E : PqEnv} {C : Spec.PqCore}
    (F : Spec.Follows E C set.sigSize) (h : PqOp.new probe false mech set param sig = .ok o) {data : Bytes} (hf : Spec.pqFits mech (!set.updates probe) data)
    {given : Option Bytes} {s : Bytes} (hg : Spec.claimed given sig = some s) :
    ((o.verify E data given).1 = .ok () ↔ ∃ m, Spec.toSign E.hash mech param data = some m ∧ C.ver m s = true) ∧
    (∀ m, Spec.toSign E.hash mech param data = some m → C.ver m s = false → (o.verify E data given).1 = .error .deviceError) := by
  have k := new_made h
  have key : ∀ m, Spec.toSign E.hash mech param data = some m → (o.verify E data given).1 = if C.ver m s then .ok () else .error .deviceError := by
    intro m hm'
    unfold PqOp.verify
    rw [k.use, k.final, k.hmech]
    simp only [Bool.false_eq_true, if_false]
    by_cases hm : mech = .prehash
    · subst hm
      obtain ⟨p, hp, h1, h2⟩ := k.prehash rfl
      subst hp
      rw [if_pos rfl]
      simp only [Spec.toSign, digestLen_eq] at hm'
      split at hm'
      · rename_i hl
        have hg' : Spec.claimed given o.signature = some s := by
          cases given with
          | some x => exact hg
          | none => exact (k.hsig rfl s hg).2.2.2 (by intro hc; cases hc)
        rw [h2] at hl
        injection hl with hl
        rw [if_neg (by simpa using hl.symm)]
        have := verifyHash_spec (o := { o with finalized := true }) F (by intro hc; cases hc) k.told k.ctx k.hsigns hg' (hmsg := data)
          (by show o.pars.hash.size = _; rw [h1, h2, hl])
        simp only [h1, k.hmech, k.use] at this
        rw [this]
        simp only [Spec.ctxOf]
        rw [hm']
      · cases hm'
    · rw [if_neg hm, (update_made k hm data).1 hf]
      refine (verifyFinal_spec F k hm data s hg).trans ?_
      rw [hm']
  have none' : Spec.toSign E.hash mech param data = none → (o.verify E data given).1 ≠ .ok () := by
    intro hm'
    unfold PqOp.verify
    rw [k.use, k.final, k.hmech]
    simp only [Bool.false_eq_true, if_false]
    by_cases hm : mech = .prehash
    · subst hm
      obtain ⟨p, hp, h1, h2⟩ := k.prehash rfl
      subst hp
      rw [if_pos rfl]
      simp only [Spec.toSign, digestLen_eq] at hm'
      by_cases hl : data.length = o.hashsize
      · rw [if_pos (by rw [h2, hl])] at hm'
        have hg' : Spec.claimed given o.signature = some s := by
          cases given with
          | some x => exact hg
          | none => exact (k.hsig rfl s hg).2.2.2 (by intro hc; cases hc)
        rw [if_neg (by simpa using hl)]
        have := verifyHash_spec (o := { o with finalized := true }) F (by intro hc; cases hc) k.told k.ctx k.hsigns hg' (hmsg := data)
          (by show o.pars.hash.size = _; rw [h1, h2, hl])
        simp only [h1, k.hmech, k.use] at this
        rw [this]
        simp only [Spec.ctxOf]
        rw [hm']
        intro hc; cases hc
      · rw [if_pos hl]
        intro hc; cases hc
    · rw [if_neg hm, (update_made k hm data).1 hf]
      intro hc
      have := (verifyFinal_spec F k hm data s hg).symm.trans hc
      rw [hm'] at this
      cases this
  refine ⟨⟨fun ho => ?_, fun ⟨m, h1, h2⟩ => ?_⟩, fun m h1 h2 => ?_⟩
  · cases hm : Spec.toSign E.hash mech param data with
    | none => exact absurd ho (none' hm)
    | some m =>
      refine ⟨m, rfl, ?_⟩
      rw [key m hm] at ho
      by_cases hv : C.ver m s = true
      · exact hv
      · rw [if_neg hv] at ho; cases ho
  · rw [key m h1, if_pos h2]
  · rw [key m h1, if_neg (by rw [h2]; simp)]

/-- Data in parts, in whatever pieces, is signed and verified like the same data at once; CKM_HASH_ML_DSA takes no parts. -/
theorem C79_parts {probe signs : Bool} {mech : PqMech} {set : PqSet} {param : Option PqParam} {sig : Option Bytes} {o : PqOp} (E : PqEnv)
    (h : PqOp.new probe signs mech set param sig = .ok o) (p : Bytes) (ps : List Bytes) :
    (mech ≠ .prehash → Spec.pqFits mech (!set.updates probe) (p :: ps).flatten → (o.parts (p :: ps)).1 = .ok () ∧
      (∀ n, ((o.parts (p :: ps)).2.signFinal E n) = o.sign E (p :: ps).flatten n) ∧
      (∀ given, ((o.parts (p :: ps)).2.verifyFinal E given) = o.verify E (p :: ps).flatten given)) ∧
    (mech ≠ .prehash → ¬ Spec.pqFits mech (!set.updates probe) (p :: ps).flatten → (o.parts (p :: ps)).1 = .error .deviceError ∧
      (∀ n, ((o.parts (p :: ps)).2.signFinal E n).1 = .error .operationNotInitialized) ∧
      (∀ given, ((o.parts (p :: ps)).2.verifyFinal E given).1 = .error .operationNotInitialized)) ∧
    (mech = .prehash → (o.parts (p :: ps)).1 = .error .operationNotInitialized) := by
  have k := new_made h
  refine ⟨fun hm hf => ?_, fun hm hf => ?_, fun hm => ?_⟩
  · have hp := (parts_made k hm p ps).1 hf
    have hu := (update_made k hm (p :: ps).flatten).1 hf
    refine ⟨by rw [hp], fun n => ?_, fun given => ?_⟩
    · unfold PqOp.sign
      rw [hp, k.use, k.final, k.hmech, if_neg hm, hu]
      rfl
    · unfold PqOp.verify
      rw [hp, k.use, k.final, k.hmech, if_neg hm, hu]
      rfl
  · have hp := (parts_made k hm p ps).2 hf
    refine ⟨hp.1, fun n => ?_, fun given => ?_⟩
    · unfold PqOp.signFinal
      rw [hp.2]
      split <;> rfl
    · unfold PqOp.verifyFinal
      rw [hp.2]
      split <;> rfl
  · subst hm
    have hmo := k.hmech
    unfold PqOp.parts PqOp.update
    rw [k.final]
    simp [hmo]

/-- What is signed on initialisation: all contexts up to 255 bytes, all known mechanisms and hashes, the three ways of hedging; a signature given to C_VerifySignatureInit has the
length of the parameter set. -/
theorem C79_init (probe signs : Bool) (mech : PqMech) (set : PqSet) (param : Option PqParam) (sig : Option Bytes) :
    (∃ o, PqOp.new probe signs mech set param sig = .ok o) ↔
      ((∀ p, param = some p → p.context.length ≤ 255 ∧ p.hedge ≤ 2) ∧
       (mech = .pure ∨ (mech = .prehash ∧ ∃ p, param = some p ∧ p.hash ≠ .other) ∨ ∃ h, mech = .hashed h ∧ h ≠ .other) ∧
       (signs = false → ∀ s, sig = some s → s.length = set.sigSize)) := by
  have hsz : ∀ h : PqHash, h.size = none ↔ h = .other := by intro h; cases h <;> simp [PqHash.size]
  constructor
  · rintro ⟨o, h⟩
    have k := new_made h
    refine ⟨?_, ?_, fun hs s he => (k.hsig hs s he).1⟩
    · intro p hp
      subst hp
      refine ⟨k.short, ?_⟩
      unfold PqOp.new PqPars.new at h
      simp only at h
      by_cases c : mech = .other
      · rw [if_pos c] at h; cases h
      · rw [if_neg c] at h
        by_cases c2 : p.hedge ≠ 0 ∧ p.hedge ≠ 1 ∧ p.hedge ≠ 2
        · rw [if_pos c2] at h; cases h
        · omega
    · rcases k.known with hk | hk | ⟨hh, hk⟩
      · exact .inl hk
      · obtain ⟨p, hp, h1, h2⟩ := k.prehash hk
        exact .inr (.inl ⟨hk, p, hp, fun hc => by rw [(hsz _).mpr hc] at h2; cases h2⟩)
      · obtain ⟨h1, h2, h3⟩ := k.hashed hh hk
        exact .inr (.inr ⟨hh, hk, fun hc => by rw [(hsz _).mpr hc] at h2; cases h2⟩)
  · rintro ⟨h1, h2, h3⟩
    have hnew : ∃ p, PqPars.new mech set param = .ok p ∧ p.set = set ∧ (mech = .prehash → p.hash ≠ .other) := by
      unfold PqPars.new
      cases param with
      | none =>
        refine ⟨_, rfl, rfl, fun hc => ?_⟩
        rcases h2 with h2 | ⟨_, q, hq, _⟩ | ⟨hh, h2, _⟩
        · rw [h2] at hc; cases hc
        · cases hq
        · rw [h2] at hc; cases hc
      | some q =>
        obtain ⟨a1, a2⟩ := h1 q rfl
        have c1 : mech ≠ .other := by
          rcases h2 with h2 | ⟨h2, _⟩ | ⟨hh, h2, _⟩ <;> rw [h2] <;> intro hc <;> cases hc
        simp only
        rw [if_neg c1, if_neg (by omega), if_neg (by omega)]
        refine ⟨_, rfl, rfl, fun hc => ?_⟩
        rcases h2 with h2 | ⟨_, q', hq, hq2⟩ | ⟨hh, h2, _⟩
        · rw [h2] at hc; cases hc
        · injection hq with hq
          subst hq
          simp only [if_pos hc]
          exact hq2
        · rw [h2] at hc; cases hc
    obtain ⟨p, hp, hset, hph⟩ := hnew
    unfold PqOp.new
    rw [hp]
    simp only
    have hsetup : ∃ o1, PqOp.setup { mech := mech, pars := p, told := p.told mech, sigctx := { signs := signs, mode := .message, updates := set.updates probe } } = .ok o1 ∧
        o1.pars.set = set ∧ o1.sigctx.signs = signs := by
      unfold PqOp.setup
      rcases h2 with h2 | ⟨h2, _⟩ | ⟨hh, h2, hne⟩
      · subst h2; exact ⟨_, rfl, hset, rfl⟩
      · subst h2
        simp only
        cases hn : p.hash.size with
        | none => exact absurd ((hsz _).mp hn) (hph rfl)
        | some n => exact ⟨_, rfl, hset, rfl⟩
      · subst h2
        simp only
        cases hn : hh.size with
        | none => exact absurd ((hsz _).mp hn) hne
        | some n => exact ⟨_, rfl, hset, rfl⟩
    obtain ⟨o1, ho1, hset1, hsg⟩ := hsetup
    rw [ho1]
    simp only
    cases signs with
    | true => exact ⟨o1, rfl⟩
    | false =>
      cases sig with
      | none => exact ⟨o1, rfl⟩
      | some s =>
        simp only [Bool.false_eq_true, if_false]
        unfold PqOp.setSignature
        rw [hset1, if_neg (by simpa using h3 rfl s rfl)]
        split
        · unfold OsslSig.setSignature
          rw [hsg]
          simp only [Bool.false_eq_true, if_false]
          split
          · rename_i e he
            split at he <;> cases he
          · exact ⟨_, rfl⟩
        · exact ⟨_, rfl⟩

namespace Spec

/-- The hash a mechanism signs with. -/
def signedHash : PqMech → Option PqParam → Option PqHash
  | .hashed h, _ => some h
  | .prehash, some p => some p.hash
  | _, _ => none

/-- The digest it signs. -/
def digest (H : PqHash → Bytes → Bytes) : PqMech → Bytes → Bytes
  | .hashed h, d => H h d
  | _, d => d

end Spec

theorem ctxBytes_inj {c1 c2 r1 r2 : Bytes} (h1 : c1.length ≤ 255) (h2 : c2.length ≤ 255)
    (h : UInt8.ofNat c1.length :: (c1 ++ r1) = UInt8.ofNat c2.length :: (c2 ++ r2)) : c1 = c2 ∧ r1 = r2 := by
  injection h with ha hb
  have ha' := congrArg UInt8.toNat ha
  simp only [UInt8.toNat_ofNat'] at ha'
  have hl : c1.length = c2.length := by omega
  exact List.append_inj hb hl

theorem hashMsg_inj {c1 c2 d1 d2 m : Bytes} {h1 h2 : PqHash} (l1 : c1.length ≤ 255) (l2 : c2.length ≤ 255) (e1 : Spec.hashMsg c1 h1 d1 = some m) (e2 : Spec.hashMsg c2 h2 d2 = some m) :
    c1 = c2 ∧ h1 = h2 ∧ d1 = d2 := by
  unfold Spec.hashMsg at e1 e2
  split at e1
  · rename_i o1 ho1
    split at e2
    · rename_i o2 ho2
      injection e1 with e1
      injection e2 with e2
      rw [← e2] at e1
      injection e1 with _ e1
      rw [List.append_assoc, List.append_assoc] at e1
      obtain ⟨hc, hr⟩ := ctxBytes_inj l1 l2 e1
      refine ⟨hc, ?_⟩
      cases h1 <;> cases h2 <;> simp [Spec.hashOid] at ho1 ho2 <;> subst ho1 <;> subst ho2 <;> simp_all
    · cases e2
  · cases e1

/-- M' tells messages, contexts, hashes and the two modes apart: a signature made for one is not one for another, as far as the algorithms bind M'. -/
theorem C79_injective {H : PqHash → Bytes → Bytes} {mech₁ mech₂ : PqMech} {p₁ p₂ : Option PqParam} {d₁ d₂ m : Bytes} (l₁ : (Spec.ctxOf p₁).length ≤ 255) (l₂ : (Spec.ctxOf p₂).length ≤ 255)
    (h₁ : Spec.toSign H mech₁ p₁ d₁ = some m) (h₂ : Spec.toSign H mech₂ p₂ d₂ = some m) :
    Spec.ctxOf p₁ = Spec.ctxOf p₂ ∧ (mech₁ = .pure ↔ mech₂ = .pure) ∧ Spec.signedHash mech₁ p₁ = Spec.signedHash mech₂ p₂ ∧ Spec.digest H mech₁ d₁ = Spec.digest H mech₂ d₂ := by
  have shape : ∀ {mech : PqMech} {p : Option PqParam} {d : Bytes}, Spec.toSign H mech p d = some m →
      (mech = .pure ∧ m = Spec.pureMsg (Spec.ctxOf p) d) ∨ (mech ≠ .pure ∧ ∃ h, Spec.signedHash mech p = some h ∧ Spec.hashMsg (Spec.ctxOf p) h (Spec.digest H mech d) = some m) := by
    intro mech p d h
    cases mech with
    | pure => simp only [Spec.toSign, digestLen_eq] at h; injection h with h; exact .inl ⟨rfl, h.symm⟩
    | hashed hh => exact .inr ⟨(by intro hc; cases hc), hh, rfl, h⟩
    | prehash =>
      cases p with
      | none => cases h
      | some q =>
        simp only [Spec.toSign, digestLen_eq] at h
        split at h
        · exact .inr ⟨(by intro hc; cases hc), q.hash, rfl, h⟩
        · cases h
    | shake => cases p <;> cases h
    | other => cases p <;> cases h
  have first : ∀ {c d : Bytes} {h : PqHash}, Spec.hashMsg c h d = some m → ∃ r, m = 1 :: r := by
    intro c d h e
    unfold Spec.hashMsg at e
    split at e
    · injection e with e; exact ⟨_, e.symm⟩
    · cases e
  rcases shape h₁ with ⟨a1, b1⟩ | ⟨a1, g1, s1, b1⟩ <;> rcases shape h₂ with ⟨a2, b2⟩ | ⟨a2, g2, s2, b2⟩
  · subst a1; subst a2
    rw [b1] at b2
    injection b2 with _ b2
    obtain ⟨hc, hd⟩ := ctxBytes_inj l₁ l₂ b2
    exact ⟨hc, Iff.rfl, rfl, hd⟩
  · obtain ⟨r, hr⟩ := first b2
    rw [b1] at hr
    injection hr with hr _
    cases hr
  · obtain ⟨r, hr⟩ := first b1
    rw [b2] at hr
    injection hr with hr _
    cases hr
  · obtain ⟨hc, hh, hd⟩ := hashMsg_inj l₁ l₂ b1 b2
    exact ⟨hc, ⟨fun h => absurd h a1, fun h => absurd h a2⟩, by rw [s1, s2, hh], hd⟩

/-- Hashing outside and CKM_HASH_ML_DSA make the same signatures as the mechanism that hashes, for the same context. -/
theorem C79_cross {probe : Bool} {set : PqSet} {h : PqHash} {p : PqParam} {sig : Option Bytes} {o₁ o₂ : PqOp} {E : PqEnv} {C : Spec.PqCore} (F : Spec.Follows E C set.sigSize)
    (hp : p.hash = h) (h₁ : PqOp.new probe true (.hashed h) set (some p) sig = .ok o₁) (h₂ : PqOp.new probe true .prehash set (some p) sig = .ok o₂) (data s : Bytes) :
    (o₁.sign E data set.sigSize).1 = .ok s ↔ (o₂.sign E (E.hash h data) set.sigSize).1 = .ok s := by
  have k := new_made h₁
  obtain ⟨_, hs, _⟩ := k.hashed h rfl
  rw [C79_signs F h₁ (fun hc => by cases hc), C79_signs F h₂ (fun hc => by cases hc)]
  simp only [Spec.toSign, digestLen_eq, hp, hs, F.hash h _ data (by rw [digestLen_eq]; exact hs), if_true, Spec.ctxOf]

/-- What one key signs, the same key accepts: with the same mechanism and context, whatever hedging was asked for, in one call or given before the data. -/
theorem C79_accepted {probe : Bool} {mech : PqMech} {set : PqSet} {p₁ p₂ : Option PqParam} {sig₁ sig₂ given : Option Bytes} {o₁ o₂ : PqOp} {E : PqEnv} {C : Spec.PqCore}
    (F : Spec.Follows E C set.sigSize) (law : ∀ det m s, C.sign det m = some s → C.ver m s = true) (hctx : Spec.ctxOf p₁ = Spec.ctxOf p₂)
    (hhash : Spec.signedHash mech p₁ = Spec.signedHash mech p₂) (h₁ : PqOp.new probe true mech set p₁ sig₁ = .ok o₁) (h₂ : PqOp.new probe false mech set p₂ sig₂ = .ok o₂)
    {data s : Bytes} (hf : Spec.pqFits mech (!set.updates probe) data) (hs : (o₁.sign E data set.sigSize).1 = .ok s) (hg : Spec.claimed given sig₂ = some s) :
    (o₂.verify E data given).1 = .ok () := by
  obtain ⟨m, hm, hc⟩ := (C79_signs F h₁ hf s).mp hs
  refine (C79_verifies F h₂ hf hg).1.mpr ⟨m, ?_, law _ _ _ hc⟩
  rw [← hm]
  have k1 := new_made h₁
  have k2 := new_made h₂
  rcases k1.known with hk | hk | ⟨hh, hk⟩
  · subst hk; simp only [Spec.toSign, digestLen_eq, hctx]
  · subst hk
    obtain ⟨q1, e1, _⟩ := k1.prehash rfl
    obtain ⟨q2, e2, _⟩ := k2.prehash rfl
    subst e1; subst e2
    simp only [Spec.signedHash, Option.some.injEq] at hhash
    simp only [Spec.ctxOf] at hctx
    simp only [Spec.toSign, digestLen_eq, hctx, hhash]
  · subst hk; simp only [Spec.toSign, digestLen_eq, hctx]

/-- What is accepted was signed for the same message: with an unforgeable algorithm (`signed` are the M' that were signed), the data, the context, the mode and the hash are those of
something signed. -/
theorem C79_bound {probe : Bool} {mech : PqMech} {set : PqSet} {param : Option PqParam} {sig given : Option Bytes} {o : PqOp} {E : PqEnv} {C : Spec.PqCore}
    (F : Spec.Follows E C set.sigSize) (signed : List (PqMech × Option PqParam × Bytes)) (hshort : ∀ x, x ∈ signed → (Spec.ctxOf x.2.1).length ≤ 255)
    (unforgeable : ∀ m s, C.ver m s = true → ∃ x, x ∈ signed ∧ Spec.toSign E.hash x.1 x.2.1 x.2.2 = some m)
    (h : PqOp.new probe false mech set param sig = .ok o) {data s : Bytes} (hf : Spec.pqFits mech (!set.updates probe) data) (hg : Spec.claimed given sig = some s)
    (hv : (o.verify E data given).1 = .ok ()) :
    ∃ x, x ∈ signed ∧ Spec.ctxOf x.2.1 = Spec.ctxOf param ∧ (x.1 = .pure ↔ mech = .pure) ∧ Spec.signedHash x.1 x.2.1 = Spec.signedHash mech param ∧
      Spec.digest E.hash x.1 x.2.2 = Spec.digest E.hash mech data := by
  obtain ⟨m, hm, hc⟩ := (C79_verifies F h hf hg).1.mp hv
  obtain ⟨x, hx, he⟩ := unforgeable m s hc
  exact ⟨x, hx, C79_injective (hshort x hx) (new_made h).short he hm⟩

/-- After C_Sign, C_Verify or the last call of several the operation is over, whatever the result. -/
theorem C79_finished {probe signs : Bool} {mech : PqMech} {set : PqSet} {param : Option PqParam} {sig : Option Bytes} {o : PqOp} (E : PqEnv)
    (h : PqOp.new probe signs mech set param sig = .ok o) (data : Bytes) (n : Nat) (given : Option Bytes) :
    (o.sign E data n).2.finalized = true ∧ (o.verify E data given).2.finalized = true ∧
    (∀ o' : PqOp, o'.finalized = true → ∀ d n g, (o'.update d).1 = .error .operationNotInitialized ∧ (o'.sign E d n).1 = .error .operationNotInitialized ∧
      (o'.signFinal E n).1 = .error .operationNotInitialized ∧ (o'.verify E d g).1 = .error .operationNotInitialized ∧ (o'.verifyFinal E g).1 = .error .operationNotInitialized) := by
  have k := new_made h
  have fin1 : ∀ (o : PqOp) n, o.inUse = true → (o.signFinal E n).2.finalized = true := by
    intro o n hu
    unfold PqOp.signFinal
    rw [hu]
    by_cases c : o.finalized = true
    · simp [c]
    · simp only [Bool.not_true, Bool.false_eq_true, if_false, c]
      repeat' split
      all_goals rfl
  have fin2 : ∀ (o : PqOp) g, o.inUse = true → (o.verifyFinal E g).2.finalized = true := by
    intro o g hu
    unfold PqOp.verifyFinal
    rw [hu]
    by_cases c : o.finalized = true
    · simp [c]
    · simp only [Bool.not_true, Bool.false_eq_true, if_false, c]
      repeat' split
      all_goals rfl
  refine ⟨?_, ?_, ?_⟩
  · unfold PqOp.sign
    rw [k.use, k.final, k.hmech]
    simp only [Bool.false_eq_true, if_false]
    by_cases hm : mech = .prehash
    · rw [if_pos hm]
      split <;> rfl
    · rw [if_neg hm]
      have hu := update_made k hm data
      by_cases hf : Spec.pqFits mech (!set.updates probe) data
      · rw [hu.1 hf]
        exact fin1 _ n (fedOp_mech o data).2.2.1
      · have := hu.2 hf
        generalize o.update data = x at this
        obtain ⟨x1, x2⟩ := x
        simp only at this
        rw [this.1]
        exact this.2
  · unfold PqOp.verify
    rw [k.use, k.final, k.hmech]
    simp only [Bool.false_eq_true, if_false]
    by_cases hm : mech = .prehash
    · rw [if_pos hm]
      split <;> rfl
    · rw [if_neg hm]
      have hu := update_made k hm data
      by_cases hf : Spec.pqFits mech (!set.updates probe) data
      · rw [hu.1 hf]
        exact fin2 _ given (fedOp_mech o data).2.2.1
      · have := hu.2 hf
        generalize o.update data = x at this
        obtain ⟨x1, x2⟩ := x
        simp only at this
        rw [this.1]
        exact this.2
  · intro o' hf d n g
    unfold PqOp.update PqOp.sign PqOp.signFinal PqOp.verify PqOp.verifyFinal
    rw [hf]
    refine ⟨rfl, ?_, ?_, ?_, ?_⟩ <;> split <;> rfl

/-- A signature of the right length that is wrong is not reported as CKR_SIGNATURE_INVALID: no verification ever answers that. -/
theorem C79_invalid_violation {probe : Bool} {mech : PqMech} {set : PqSet} {param : Option PqParam} {sig : Option Bytes} {o : PqOp} {E : PqEnv} {C : Spec.PqCore}
    (F : Spec.Follows E C set.sigSize) (h : PqOp.new probe false mech set param sig = .ok o) {data : Bytes} (hf : Spec.pqFits mech (!set.updates probe) data)
    {given : Option Bytes} {s m : Bytes} (hg : Spec.claimed given sig = some s) (hm : Spec.toSign E.hash mech param data = some m) (hv : C.ver m s = false) :
    (o.verify E data given).1 = .error .deviceError :=
  (C79_verifies F h hf hg).2 m hm hv

/-- A SHA-1, SHA-512/224 or SHA-512/256 digest for CKM_HASH_ML_DSA is accepted by C_SignInit and refused by every C_Sign. -/
theorem C79_hash_violation {probe : Bool} {set : PqSet} {p : PqParam} (hh : p.hash = .sha1 ∨ p.hash = .sha512_224 ∨ p.hash = .sha512_256) (hc : p.context.length ≤ 255) (hd : p.hedge ≤ 2) (E : PqEnv) :
    ∃ o, PqOp.new probe true .prehash set (some p) none = .ok o ∧
      (∀ data n, Spec.digestLen p.hash = some data.length → (o.sign E data n).1 = .error .mechanismParamInvalid) ∧
      (∀ data n, Spec.digestLen p.hash ≠ some data.length → (o.sign E data n).1 = .error .dataLenRange) := by
  obtain ⟨o, ho⟩ := (C79_init probe true .prehash set (some p) none).mpr
    ⟨fun q hq => by injection hq with hq; subst hq; exact ⟨hc, hd⟩, .inr (.inl ⟨rfl, p, rfl, by rcases hh with h | h | h <;> rw [h] <;> intro hx <;> cases hx⟩), fun hs => by cases hs⟩
  have k := new_made ho
  obtain ⟨q, hq, h1, h2⟩ := k.prehash rfl
  injection hq with hq
  subst hq
  have harc : p.hash.arc = none := by rcases hh with h | h | h <;> rw [h] <;> rfl
  refine ⟨o, ho, fun data n hl => ?_, fun data n hl => ?_⟩
  · rw [digestLen_eq, h2] at hl
    injection hl with hl
    unfold PqOp.sign PqOp.signHash PqPars.mPrime
    rw [k.use, k.final, k.hmech]
    simp [hl, h1, harc]
  · unfold PqOp.sign
    rw [k.use, k.final, k.hmech]
    have : data.length ≠ o.hashsize := fun hc => hl (by rw [digestLen_eq, h2, hc])
    simp [this]

/-- Data of more than 1 MiB cannot be signed when OpenSSL does not take parts: never for SLH-DSA, although the standard has no limit. -/
theorem C79_size_violation {probe : Bool} {set : PqSet} {param : Option PqParam} {sig : Option Bytes} {o : PqOp} (E : PqEnv) (h : PqOp.new probe true .pure set param sig = .ok o)
    (hu : set.updates probe = false) {data : Bytes} (hl : 1024 * 1024 < data.length) (n : Nat) : (o.sign E data n).1 = .error .deviceError := by
  have k := new_made h
  have := (update_made k (by intro hc; cases hc) data).2 (fun hf => by have := hf rfl (by simp [hu]); omega)
  unfold PqOp.sign
  rw [k.use, k.final, k.hmech]
  generalize o.update data = x at this
  obtain ⟨x1, x2⟩ := x
  simp only at this
  rw [this.1]
  rfl

/-! Examples. -/

/-- A toy algorithm: the signature is the start of M'. -/
def pqToyCore (size : Nat) : Spec.PqCore where
  sign := fun _ m => some ((m ++ List.replicate size 0).take size)
  ver := fun m s => s == (m ++ List.replicate size 0).take size

/-- An OpenSSL that follows a given algorithm. -/
def pqEnvOf (C : Spec.PqCore) (size : Nat) : PqEnv where
  ossl := fun t =>
    let f := fun m => if t.raw then m else Spec.pureMsg (t.context.getD []) m
    ⟨size, fun m => C.sign t.deterministic (f m), fun m s => C.ver (f m) s, fun m => C.sign t.deterministic (f m), fun m s => C.ver (f m) s⟩
  hash := fun h m => (m ++ List.replicate (h.size.getD 0) 0).take (h.size.getD 0)

theorem pqEnvOf_follows (C : Spec.PqCore) (size : Nat) (hs : ∀ d m s, C.sign d m = some s → s.length = size) : Spec.Follows (pqEnvOf C size) C size where
  announced := fun _ => rfl
  sign := fun _ _ => rfl
  signFed := fun _ _ => rfl
  ver := fun _ _ _ => rfl
  verFed := fun _ _ _ => rfl
  size := hs
  hash := fun h n m he => by
    rw [digestLen_eq] at he
    simp only [pqEnvOf, he, Option.getD_some, List.length_take, List.length_append, List.length_replicate]
    omega

/-- An OpenSSL that follows the toy algorithm. -/
def pqToyEnv (size : Nat) : PqEnv := pqEnvOf (pqToyCore size) size

theorem pqToy_follows (size : Nat) : Spec.Follows (pqToyEnv size) (pqToyCore size) size :=
  pqEnvOf_follows _ _ fun d m s h => by
    simp only [pqToyCore, Option.some.injEq] at h
    rw [← h, List.length_take, List.length_append, List.length_replicate]
    omega

/-- The initialisations the theorems are about exist, for all mechanisms. -/
example : ∃ o, PqOp.new false true .pure .ml65 (some ⟨2, [7, 8], .other⟩) none = .ok o := ⟨_, rfl⟩

example : ∃ o, PqOp.new true false (.hashed .sha3_256) (.slh128f true) (some ⟨0, [7, 8], .other⟩) (some (List.replicate 17088 1)) = .ok o :=
  (C79_init _ _ _ _ _ _).mpr ⟨fun p hp => by injection hp with hp; subst hp; decide, .inr (.inr ⟨_, rfl, by decide⟩), fun _ s hs => by injection hs with hs; subst hs; rw [List.length_replicate]; rfl⟩

example : ∃ o, PqOp.new false true .prehash .ml44 (some ⟨1, [], .sha256⟩) none = .ok o := ⟨_, rfl⟩

/-- Parts sign like the whole, and the whole has a signature. -/
example (o : PqOp) (h : PqOp.new false true .pure .ml44 (some ⟨0, [7], .other⟩) none = .ok o) :
    ∃ s, ((o.parts [[1, 2], [3]]).2.signFinal (pqToyEnv 2420) 2420).1 = .ok s ∧ s.take 6 = [0, 1, 7, 1, 2, 3] := by
  have hf : Spec.pqFits .pure true [1, 2, 3] := fun _ _ => by simp
  refine ⟨((Spec.pureMsg [7] [1, 2, 3]) ++ List.replicate 2420 0).take 2420, ?_, ?_⟩
  · rw [((C79_parts (pqToyEnv 2420) h [1, 2] [[3]]).1 (by intro hc; cases hc) hf).2.1]
    exact (C79_signs (set := .ml44) (pqToy_follows 2420) h hf _).mpr ⟨_, rfl, rfl⟩
  · rw [List.take_take]; rfl

/-- An algorithm that accepts one M' only, as if it had been signed once: what is accepted is that message with its context. -/
def pqOnce : Spec.PqCore where
  sign := fun _ m => if m = Spec.pureMsg [7] [1, 2, 3] then some (List.replicate 2420 9) else none
  ver := fun m s => m == Spec.pureMsg [7] [1, 2, 3] && s == List.replicate 2420 9

theorem pqOnce_follows : Spec.Follows (pqEnvOf pqOnce 2420) pqOnce 2420 :=
  pqEnvOf_follows _ _ fun d m s h => by
    simp only [pqOnce] at h
    split at h
    · injection h with h; rw [← h, List.length_replicate]
    · cases h

example (o : PqOp) (h : PqOp.new false false .pure .ml44 (some ⟨0, [7], .other⟩) (some (List.replicate 2420 9)) = .ok o) :
    (o.verify (pqEnvOf pqOnce 2420) [1, 2, 3] none).1 = .ok () ∧ (o.verify (pqEnvOf pqOnce 2420) [1, 2] none).1 = .error .deviceError := by
  refine ⟨?_, ?_⟩
  · exact (C79_verifies (set := .ml44) pqOnce_follows h (fun _ _ => by simp) (s := List.replicate 2420 9) rfl).1.mpr ⟨Spec.pureMsg [7] [1, 2, 3], rfl, by simp only [pqOnce, beq_self_eq_true, Bool.and_self]⟩
  · exact C79_invalid_violation (set := .ml44) pqOnce_follows h (fun _ _ => by simp) (s := List.replicate 2420 9) rfl (m := Spec.pureMsg [7] [1, 2]) rfl (by
      have : (Spec.pureMsg [7] [1, 2] == Spec.pureMsg [7] [1, 2, 3]) = false := by decide
      simp only [pqOnce, this, Bool.false_and])

example (m s : Bytes) (h : pqOnce.ver m s = true) :
    ∃ x, x ∈ [((.pure, some ⟨0, [7], .other⟩, [1, 2, 3]) : PqMech × Option PqParam × Bytes)] ∧ Spec.toSign (pqEnvOf pqOnce 2420).hash x.1 x.2.1 x.2.2 = some m := by
  refine ⟨_, List.mem_singleton.mpr rfl, ?_⟩
  simp only [pqOnce, Bool.and_eq_true, beq_iff_eq] at h
  rw [h.1]
  rfl

end Kry

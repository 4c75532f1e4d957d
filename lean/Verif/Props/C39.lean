import Verif.Model.Sp800
import Verif.Props.C50
import Verif.Proofs.Basic

/-!
# C39: SP 800-108 key derivation

`C39_values`: the keys that a successful derivation answers hold their slices of the concatenated blocks, each block being the PRF of the
application's fields in their order.  `C39_slices`: the slices lie one after the other and inside the output.  `C39_distinct`: in counter
mode no two blocks are made from the same message.  `C39_fields`: parameters outside of the mode's rules are never accepted.
The violations show the length field reduced modulo 2^w - 1 and the widths that panic.
-/

namespace Kry
namespace Spec

/-- A number in `w` bytes. -/
def enc (le : Bool) (w n : Nat) : Bytes := if le then toLE w n else toBE w n

/-- What one of the application's fields contributes to the message of block `i` (counted from 1): in counter mode the iteration variable is
the block number, in feedback mode the output of the block before (the IV for the first). -/
def prfField (counter : Bool) (prev : Bytes) (i klen slen : Nat) : Sp800Param → Bytes
  | .iteration f => if counter then enc f.le (f.bits / 8) i else prev
  | .counter f => enc f.le (f.bits / 8) i
  | .byteArray b => b
  | .dkmLength f => enc f.le (f.bits / 8) (if f.method = CK_SP800_108_DKM_LENGTH_SUM_OF_SEGMENTS then slen else klen)

/-- The message of block `i`: the fields in order. -/
def prfMsg (counter : Bool) (ps : List Sp800Param) (prev : Bytes) (i klen slen : Nat) : Bytes :=
  (ps.map (prfField counter prev i klen slen)).flatten

/-- The blocks from number `i` on, one after the other. -/
def kdfOut (F : Bytes → Bytes) (counter : Bool) (ps : List Sp800Param) (klen slen : Nat) : Nat → Nat → Bytes → Bytes
  | 0, _, _ => []
  | n + 1, i, prev => F (prfMsg counter ps prev i klen slen) ++
      kdfOut F counter ps klen slen n (i + 1) (F (prfMsg counter ps prev i klen slen))

/-- `n` rounded up to a multiple of `seg`. -/
def roundUp (seg n : Nat) : Nat := (n + seg - 1) / seg * seg

/-- Where the `j`-th key begins: every key begins with a block of its own. -/
def offset (seg : Nat) (sizes : List Nat) (j : Nat) : Nat := ((sizes.take j).map (roundUp seg)).sum

/-- The length of all segments. -/
def total (seg : Nat) (sizes : List Nat) : Nat := (sizes.map (roundUp seg)).sum

/-- The operations that `new` makes for the key compute `F`, however the input is divided. -/
def Computes (new : Obj → Res MacOp) (key : Obj) (F : Bytes → Bytes) (seg : Nat) : Prop :=
  ∃ m, new key = .ok m ∧ m.len = seg ∧ 0 < seg ∧ (∀ x, (F x).length = seg) ∧
    ∀ parts : List Bytes, ∃ m', parts.foldlM MacOp.update m = .ok m' ∧ m'.final seg = .ok (F parts.flatten)

/-- The lengths of the derived keys. -/
def keyLens (os : List Obj) (sizes : List Nat) : Prop := os.map (fun o => o.getUlong CKA_VALUE_LEN) = sizes.map Except.ok

/-- The length fields can hold the lengths (the largest value of a field excepted). -/
def lengthsFit (ps : List Sp800Param) (klen slen : Nat) : Prop :=
  ∀ f, .dkmLength f ∈ ps → (if f.method = CK_SP800_108_DKM_LENGTH_SUM_OF_SEGMENTS then slen else klen) < 2 ^ f.bits - 1

def isIter : Sp800Param → Bool | .iteration _ => true | _ => false
def isCtr : Sp800Param → Bool | .counter _ => true | _ => false
def isDkm : Sp800Param → Bool | .dkmLength _ => true | _ => false

/-- A field the mode supports. -/
def fieldOk (counter : Bool) : Sp800Param → Prop
  | .iteration f => if counter then f.defined = true ∧ f.bits ∈ [8, 16, 24, 32] else f.defined = false
  | .counter f => counter = false ∧ f.defined = true ∧ f.bits ∈ [8, 16, 24, 32]
  | .byteArray _ => True
  | .dkmLength f => f.method ∈ [CK_SP800_108_DKM_LENGTH_SUM_OF_KEYS, CK_SP800_108_DKM_LENGTH_SUM_OF_SEGMENTS] ∧ f.bits ∈ [8, 16, 24, 32, 64]

/-- The rules of a mode: one iteration variable, at most one length field and one counter, and only supported fields. -/
def fieldsOk (counter : Bool) (ps : List Sp800Param) : Prop :=
  ps.countP isIter = 1 ∧ ps.countP isDkm ≤ 1 ∧ ps.countP isCtr ≤ 1 ∧ ∀ p ∈ ps, fieldOk counter p

/-- A counter format structure, or nothing. -/
def readsFmt (p : PrfParam) (f : CtrFmt) : Prop :=
  (f.defined = false ∧ p.len = 0 ∧ p.isNull = true) ∨
    (f.defined = true ∧ p.len = 16 ∧ p.isNull = false ∧ p.buf.getD 0 0 = (if f.le then 1 else 0) ∧ fromLE ((p.buf.drop 8).take 8) = f.bits)

/-- The application's structure says this. -/
def readsAs (p : PrfParam) : Sp800Param → Prop
  | .iteration f => p.typ = CK_SP800_108_ITERATION_VARIABLE ∧ readsFmt p f
  | .counter f => p.typ = CK_SP800_108_COUNTER ∧ readsFmt p f
  | .byteArray b => p.typ = CK_SP800_108_BYTE_ARRAY ∧ p.len ≠ 0 ∧ p.isNull = false ∧ b = p.buf.take p.len
  | .dkmLength f => p.typ = CK_SP800_108_DKM_LENGTH ∧ p.len = 24 ∧ p.isNull = false ∧ fromLE (p.buf.take 8) = f.method ∧
      p.buf.getD 8 0 = (if f.le then 1 else 0) ∧ fromLE ((p.buf.drop 16).take 8) = f.bits

end Spec

open Spec

theorem le1 (n : Nat) : [UInt8.ofNat n] = toLE 1 n := by
  simp only [toLE]
  congr 1
  apply UInt8.toNat_inj.1
  simp

theorem le3 (n : Nat) : (toLE 4 n).take 3 = toLE 3 n := rfl
theorem be3 (n : Nat) : (toBE 4 n).drop 1 = toBE 3 n := by simp [toBE, toLE]
theorem be1 (n : Nat) : toBE 1 n = toLE 1 n := rfl

/-- `ctr_update` feeds the counter in the requested form, and only if it fits. -/
theorem ctr_ok {f : CtrFmt} {i : Nat} {b : Bytes} (h : ctrBytes f i = .ok b) :
    b = enc f.le (f.bits / 8) i ∧ f.defined = true ∧ f.bits ∈ [8, 16, 24, 32] ∧ i < 2 ^ f.bits := by
  unfold ctrBytes at h
  unfold enc
  split at h
  · cases h
  rename_i hd
  have hd : f.defined = true := by simpa using hd
  split at h
  · rename_i hb
    split at h
    · cases h
    · injection h with h
      rw [hb, ← h]
      refine ⟨?_, hd, by simp, by omega⟩
      rw [le1]; split <;> rfl
  split at h
  · rename_i hb
    split at h
    · cases h
    · injection h with h
      rw [hb, ← h]
      exact ⟨rfl, hd, by simp, by omega⟩
  split at h
  · rename_i hb
    split at h
    · cases h
    · injection h with h
      rw [hb, ← h]
      refine ⟨?_, hd, by simp, by omega⟩
      rw [le3, be3]
  split at h
  · rename_i hb
    split at h
    · cases h
    · injection h with h
      rw [hb, ← h]
      exact ⟨rfl, hd, by simp, by omega⟩
  · cases h

/-- `dkm_update`. -/
theorem dkm_ok {f : DkmFmt} {klen slen : Nat} {b : Bytes} (h : dkmBytes f klen slen = .ok b) :
    f.method ∈ [CK_SP800_108_DKM_LENGTH_SUM_OF_KEYS, CK_SP800_108_DKM_LENGTH_SUM_OF_SEGMENTS] ∧ f.bits ∈ [8, 16, 24, 32, 64] ∧
      ((if f.method = CK_SP800_108_DKM_LENGTH_SUM_OF_SEGMENTS then slen else klen) < 2 ^ f.bits - 1 →
        b = enc f.le (f.bits / 8) (if f.method = CK_SP800_108_DKM_LENGTH_SUM_OF_SEGMENTS then slen else klen)) := by
  unfold dkmBytes at h
  simp only at h
  split at h
  · cases h
  rename_i len hl
  have hm : f.method ∈ [CK_SP800_108_DKM_LENGTH_SUM_OF_KEYS, CK_SP800_108_DKM_LENGTH_SUM_OF_SEGMENTS] ∧
      (if f.method = CK_SP800_108_DKM_LENGTH_SUM_OF_SEGMENTS then slen else klen) = len := by
    split at hl
    · rename_i e; injection hl with hl; exact ⟨by simp [e], by rw [if_pos e]; exact hl⟩
    · rename_i hne
      split at hl
      · rename_i e; injection hl with hl; exact ⟨by simp [e], by rw [if_neg hne]; exact hl⟩
      · cases hl
  rw [hm.2]
  unfold enc
  refine ⟨hm.1, ?_⟩
  split at h
  · rename_i hb
    injection h with h
    rw [hb, ← h]
    refine ⟨by simp, fun hlt => ?_⟩
    rw [Nat.mod_eq_of_lt hlt, le1]; split <;> rfl
  split at h
  · rename_i hb
    injection h with h
    rw [hb, ← h]
    refine ⟨by simp, fun hlt => ?_⟩
    rw [Nat.mod_eq_of_lt hlt]
  split at h
  · rename_i hb
    injection h with h
    rw [hb, ← h]
    refine ⟨by simp, fun hlt => ?_⟩
    rw [Nat.mod_eq_of_lt hlt, le3, be3]
  split at h
  · rename_i hb
    injection h with h
    rw [hb, ← h]
    refine ⟨by simp, fun hlt => ?_⟩
    rw [Nat.mod_eq_of_lt hlt]
  split at h
  · cases h
  split at h
  · rename_i hb
    injection h with h
    rw [hb, ← h]
    refine ⟨by simp, fun hlt => ?_⟩
    rw [Nat.mod_eq_of_lt hlt]
  · cases h

/-- The counter mode updates. -/
theorem counter_ok {i klen slen : Nat} {prev : Bytes} {ps : List Sp800Param} {sd si : Bool} {m m' : MacOp}
    (h : counterUpdates i klen slen ps sd si m = .ok m') :
    (lengthsFit ps klen slen → (ps.map (prfField true prev i klen slen)).foldlM MacOp.update m = .ok m') ∧
      (ps.countP isIter + si.toNat = 1 ∧ ps.countP isDkm + sd.toNat ≤ 1 ∧ ps.countP isCtr = 0 ∧ ∀ p ∈ ps, fieldOk true p) ∧
      ∀ f, .iteration f ∈ ps → i < 2 ^ f.bits := by
  induction ps generalizing sd si m with
  | nil =>
    unfold counterUpdates at h
    split at h
    · rename_i hs; injection h with h; subst h; rw [hs]; exact ⟨fun _ => rfl, ⟨rfl, by cases sd <;> decide, rfl, nofun⟩, nofun⟩
    · cases h
  | cons p l ih =>
    have fit1 : lengthsFit (p :: l) klen slen → lengthsFit l klen slen := fun hf f hm => hf f (.tail _ hm)
    cases p with
    | iteration f =>
      simp only [counterUpdates, MacOp.feed] at h
      split at h
      · cases h
      rename_i hsi
      have hsi : si = false := by simpa using hsi
      subst hsi
      split at h
      · cases h
      rename_i m1 hu
      split at hu
      · cases hu
      rename_i b hb
      obtain ⟨c1, c2, c3, c4⟩ := ctr_ok hb
      obtain ⟨i1, ⟨i2, i3, i4, i5⟩, i6⟩ := ih h
      refine ⟨fun hf => ?_, ⟨?_, ?_, ?_, ?_⟩, ?_⟩
      · simp only [List.map_cons, List.foldlM_cons, prfField, if_true, ← c1, hu]
        exact i1 (fit1 hf)
      · simp only [List.countP_cons, isIter, if_true] at i2 ⊢; simp at i2 ⊢; omega
      · simpa [List.countP_cons, isDkm] using i3
      · simpa [List.countP_cons, isCtr] using i4
      · rintro q (_ | ⟨_, hq⟩)
        · exact ⟨c2, c3⟩
        · exact i5 q hq
      · rintro g (_ | ⟨_, hq⟩)
        · exact c4
        · exact i6 g hq
    | counter f => simp only [counterUpdates] at h; cases h
    | byteArray b =>
      simp only [counterUpdates, MacOp.feed] at h
      split at h
      · cases h
      rename_i m1 hu
      obtain ⟨i1, ⟨i2, i3, i4, i5⟩, i6⟩ := ih h
      refine ⟨fun hf => ?_, ⟨?_, ?_, ?_, ?_⟩, ?_⟩
      · simp only [List.map_cons, List.foldlM_cons, prfField, hu]
        exact i1 (fit1 hf)
      · simpa [List.countP_cons, isIter] using i2
      · simpa [List.countP_cons, isDkm] using i3
      · simpa [List.countP_cons, isCtr] using i4
      · rintro q (_ | ⟨_, hq⟩)
        · trivial
        · exact i5 q hq
      · rintro g (_ | ⟨_, hq⟩)
        exact i6 g hq
    | dkmLength f =>
      simp only [counterUpdates, MacOp.feed] at h
      split at h
      · cases h
      rename_i hsd
      have hsd : sd = false := by simpa using hsd
      subst hsd
      split at h
      · cases h
      rename_i m1 hu
      split at hu
      · cases hu
      rename_i b hb
      obtain ⟨c1, c2, c3⟩ := dkm_ok hb
      obtain ⟨i1, ⟨i2, i3, i4, i5⟩, i6⟩ := ih h
      refine ⟨fun hf => ?_, ⟨?_, ?_, ?_, ?_⟩, ?_⟩
      · simp only [List.map_cons, List.foldlM_cons, prfField, ← c3 (hf f (.head _)), hu]
        exact i1 (fit1 hf)
      · simpa [List.countP_cons, isIter] using i2
      · simp only [List.countP_cons, isDkm, if_true] at i3 ⊢; simp at i3 ⊢; omega
      · simpa [List.countP_cons, isCtr] using i4
      · rintro q (_ | ⟨_, hq⟩)
        · exact ⟨c1, c2⟩
        · exact i5 q hq
      · rintro g (_ | ⟨_, hq⟩)
        exact i6 g hq

/-- The feedback mode updates. -/
theorem feedback_ok {i klen slen : Nat} {prev : Bytes} {ps : List Sp800Param} {sd si sc : Bool} {m m' : MacOp}
    (h : feedbackUpdates prev i klen slen ps sd si sc m = .ok m') :
    (lengthsFit ps klen slen → (ps.map (prfField false prev i klen slen)).foldlM MacOp.update m = .ok m') ∧
      ps.countP isIter + si.toNat = 1 ∧ ps.countP isDkm + sd.toNat ≤ 1 ∧ ps.countP isCtr + sc.toNat ≤ 1 ∧ ∀ p ∈ ps, fieldOk false p := by
  induction ps generalizing sd si sc m with
  | nil =>
    unfold feedbackUpdates at h
    split at h
    · rename_i hs; injection h with h; subst h; rw [hs]
      exact ⟨fun _ => rfl, rfl, by cases sd <;> decide, by cases sc <;> decide, nofun⟩
    · cases h
  | cons p l ih =>
    have fit1 : lengthsFit (p :: l) klen slen → lengthsFit l klen slen := fun hf f hm => hf f (.tail _ hm)
    cases p with
    | iteration f =>
      simp only [feedbackUpdates, MacOp.feed] at h
      split at h
      · cases h
      rename_i hsi
      have hsi : si = false := by simpa using hsi
      subst hsi
      split at h
      · cases h
      rename_i hdf
      split at h
      · cases h
      rename_i m1 hu
      obtain ⟨i1, i2, i3, i4, i5⟩ := ih h
      refine ⟨fun hf => ?_, ?_, ?_, ?_, ?_⟩
      · simp only [List.map_cons, List.foldlM_cons, prfField, if_false, hu, Bool.false_eq_true]
        exact i1 (fit1 hf)
      · simp only [List.countP_cons, isIter, if_true] at i2 ⊢; simp at i2 ⊢; omega
      · simpa [List.countP_cons, isDkm] using i3
      · simpa [List.countP_cons, isCtr] using i4
      · rintro q (_ | ⟨_, hq⟩)
        · show f.defined = false; simpa using hdf
        · exact i5 q hq
    | counter f =>
      simp only [feedbackUpdates, MacOp.feed] at h
      split at h
      · cases h
      rename_i hsc
      have hsc : sc = false := by simpa using hsc
      subst hsc
      split at h
      · cases h
      rename_i m1 hu
      split at hu
      · cases hu
      rename_i b hb
      obtain ⟨c1, c2, c3, c4⟩ := ctr_ok hb
      obtain ⟨i1, i2, i3, i4, i5⟩ := ih h
      refine ⟨fun hf => ?_, ?_, ?_, ?_, ?_⟩
      · simp only [List.map_cons, List.foldlM_cons, prfField, ← c1, hu]
        exact i1 (fit1 hf)
      · simpa [List.countP_cons, isIter] using i2
      · simpa [List.countP_cons, isDkm] using i3
      · simp only [List.countP_cons, isCtr, if_true] at i4 ⊢; simp at i4 ⊢; omega
      · rintro q (_ | ⟨_, hq⟩)
        · exact ⟨rfl, c2, c3⟩
        · exact i5 q hq
    | byteArray b =>
      simp only [feedbackUpdates, MacOp.feed] at h
      split at h
      · cases h
      rename_i m1 hu
      obtain ⟨i1, i2, i3, i4, i5⟩ := ih h
      refine ⟨fun hf => ?_, ?_, ?_, ?_, ?_⟩
      · simp only [List.map_cons, List.foldlM_cons, prfField, hu]
        exact i1 (fit1 hf)
      · simpa [List.countP_cons, isIter] using i2
      · simpa [List.countP_cons, isDkm] using i3
      · simpa [List.countP_cons, isCtr] using i4
      · rintro q (_ | ⟨_, hq⟩)
        · trivial
        · exact i5 q hq
    | dkmLength f =>
      simp only [feedbackUpdates, MacOp.feed] at h
      split at h
      · cases h
      rename_i hsd
      have hsd : sd = false := by simpa using hsd
      subst hsd
      split at h
      · cases h
      rename_i m1 hu
      split at hu
      · cases hu
      rename_i b hb
      obtain ⟨c1, c2, c3⟩ := dkm_ok hb
      obtain ⟨i1, i2, i3, i4, i5⟩ := ih h
      refine ⟨fun hf => ?_, ?_, ?_, ?_, ?_⟩
      · simp only [List.map_cons, List.foldlM_cons, prfField, ← c3 (hf f (.head _)), hu]
        exact i1 (fit1 hf)
      · simpa [List.countP_cons, isIter] using i2
      · simp only [List.countP_cons, isDkm, if_true] at i3 ⊢; simp at i3 ⊢; omega
      · simpa [List.countP_cons, isCtr] using i4
      · rintro q (_ | ⟨_, hq⟩)
        · exact ⟨c1, c2⟩
        · exact i5 q hq

theorem feed_cons {m m1 m' : MacOp} {b : Res Bytes} (hu : m.feed b = .ok m1) (h : ∃ parts : List Bytes, parts.foldlM MacOp.update m1 = .ok m') :
    ∃ parts : List Bytes, parts.foldlM MacOp.update m = .ok m' := by
  obtain ⟨parts, h⟩ := h
  unfold MacOp.feed at hu
  split at hu
  · cases hu
  · rename_i b
    refine ⟨b :: parts, ?_⟩
    rw [List.foldlM_cons, hu]
    exact h

theorem counter_fed {i klen slen : Nat} {ps : List Sp800Param} {sd si : Bool} {m m' : MacOp} (h : counterUpdates i klen slen ps sd si m = .ok m') :
    ∃ parts : List Bytes, parts.foldlM MacOp.update m = .ok m' := by
  induction ps generalizing sd si m with
  | nil =>
    unfold counterUpdates at h
    split at h
    · injection h with h; subst h; exact ⟨[], rfl⟩
    · cases h
  | cons p l ih =>
    cases p with
    | counter f => simp only [counterUpdates] at h; cases h
    | _ =>
      simp only [counterUpdates] at h
      repeat' split at h
      all_goals first | (cases h; done) | (rename_i hu; exact feed_cons hu (ih h))

theorem feedback_fed {i klen slen : Nat} {prev : Bytes} {ps : List Sp800Param} {sd si sc : Bool} {m m' : MacOp}
    (h : feedbackUpdates prev i klen slen ps sd si sc m = .ok m') : ∃ parts : List Bytes, parts.foldlM MacOp.update m = .ok m' := by
  induction ps generalizing sd si sc m with
  | nil =>
    unfold feedbackUpdates at h
    split at h
    · injection h with h; subst h; exact ⟨[], rfl⟩
    · cases h
  | cons p l ih =>
    cases p with
    | _ =>
      simp only [feedbackUpdates] at h
      repeat' split at h
      all_goals first | (cases h; done) | (rename_i hu; exact feed_cons hu (ih h))

/-- One block. -/
theorem block_ok {op : Sp800} {new : Obj → Res MacOp} {key : Obj} {F : Bytes → Bytes} {seg : Nat} (hF : Computes new key F seg) {m m' : MacOp}
    {i klen slen : Nat} {prev b : Bytes} (hm : new key = .ok m)
    (h : (if op.mech = CKM_SP800_108_COUNTER_KDF then counterUpdates i klen slen op.params false false m
        else if op.mech = CKM_SP800_108_FEEDBACK_KDF then feedbackUpdates prev i klen slen op.params false false false m
        else .error .generalError) = .ok m') (hb : m'.final seg = .ok b) :
    let counter := op.mech == CKM_SP800_108_COUNTER_KDF
    (lengthsFit op.params klen slen → b = F (prfMsg counter op.params prev i klen slen)) ∧ fieldsOk counter op.params ∧
      (op.mech = CKM_SP800_108_COUNTER_KDF ∨ op.mech = CKM_SP800_108_FEEDBACK_KDF) ∧
      (counter = true → ∀ f, .iteration f ∈ op.params → i < 2 ^ f.bits) := by
  obtain ⟨m0, h1, h2, h3, h4, h5⟩ := hF
  rw [hm] at h1
  injection h1 with h1
  subst h1
  simp only
  by_cases hc : op.mech = CKM_SP800_108_COUNTER_KDF
  · rw [if_pos hc] at h
    obtain ⟨k1, ⟨k2, k3, k4, k5⟩, k6⟩ := counter_ok (prev := prev) h
    simp only [hc, beq_self_eq_true, true_or, true_and]
    refine ⟨fun hf => ?_, ⟨by simpa using k2, by simpa using k3, by omega, k5⟩, fun _ => k6⟩
    obtain ⟨m2, g1, g2⟩ := h5 (op.params.map (prfField true prev i klen slen))
    rw [k1 hf] at g1
    injection g1 with g1
    subst g1
    rw [hb] at g2
    injection g2
  · rw [if_neg hc] at h
    have hcb : (op.mech == CKM_SP800_108_COUNTER_KDF) = false := by simpa using hc
    by_cases hf : op.mech = CKM_SP800_108_FEEDBACK_KDF
    · rw [if_pos hf] at h
      obtain ⟨k1, k2, k3, k4, k5⟩ := feedback_ok h
      rw [hcb]
      refine ⟨fun hf => ?_, ⟨by simpa using k2, by simpa using k3, by simpa using k4, k5⟩, .inr hf, nofun⟩
      obtain ⟨m2, g1, g2⟩ := h5 (op.params.map (prfField false prev i klen slen))
      rw [k1 hf] at g1
      injection g1 with g1
      subst g1
      rw [hb] at g2
      injection g2
    · rw [if_neg hf] at h; cases h

/-- The loop. -/
theorem loop_ok {op : Sp800} {new : Obj → Res MacOp} {key : Obj} {F : Bytes → Bytes} {seg : Nat} (hF : Computes new key F seg)
    {klen slen : Nat} (n ctr : Nat) {m : MacOp} {dkm out prev : Bytes} (hm : ctr = 0 → new key = .ok m)
    (hp : (if ctr = 0 then op.iv else dkm.drop (dkm.length - seg)) = prev)
    (h : sp800Loop new key op seg klen slen n ctr m dkm = .ok out) :
    let counter := op.mech == CKM_SP800_108_COUNTER_KDF
    (lengthsFit op.params klen slen → out = dkm ++ kdfOut F counter op.params klen slen n (ctr + 1) prev) ∧
      (0 < n → fieldsOk counter op.params ∧ (op.mech = CKM_SP800_108_COUNTER_KDF ∨ op.mech = CKM_SP800_108_FEEDBACK_KDF)) ∧
      (counter = true → ∀ f, .iteration f ∈ op.params → ∀ i, ctr < i → i ≤ ctr + n → i < 2 ^ f.bits) := by
  induction n generalizing ctr m dkm prev with
  | zero =>
    unfold sp800Loop at h
    injection h with h
    subst h
    exact ⟨fun _ => by simp [kdfOut], fun h => absurd h (by omega), fun _ _ _ i h1 h2 => by omega⟩
  | succ n ih =>
    unfold sp800Loop at h
    simp only at h
    split at h
    · cases h
    rename_i m0 hm0
    have hnew : new key = .ok m0 := by
      split at hm0
      · exact hm0
      · rename_i hc
        have hc : ctr = 0 := by simpa using hc
        rw [hm hc, hm0]
    rw [hp] at h
    split at h
    · cases h
    rename_i m1 hm1
    split at h
    · cases h
    rename_i b hb
    obtain ⟨k1, k2, k3, k4⟩ := block_ok hF hnew hm1 hb
    have hbl : b.length = seg := by
      obtain ⟨m2, h2, _, _, h4, h5⟩ := hF
      rw [hnew] at h2
      injection h2 with h2
      subst h2
      have hp : ∃ parts : List Bytes, parts.foldlM MacOp.update m0 = .ok m1 := by
        split at hm1
        · exact counter_fed hm1
        · split at hm1
          · exact feedback_fed hm1
          · cases hm1
      obtain ⟨parts, hp⟩ := hp
      obtain ⟨m3, g1, g2⟩ := h5 parts
      rw [hp] at g1
      injection g1 with g1
      subst g1
      rw [hb] at g2
      injection g2 with g2
      rw [g2]; exact h4 _
    obtain ⟨i1, i2, i3⟩ := ih (ctr + 1) (prev := b) (fun h => absurd h (by omega)) (by
      rw [if_neg (by omega), List.length_append, hbl, Nat.add_sub_cancel, List.drop_append_of_le_length (Nat.le_refl _),
        List.drop_of_length_le (Nat.le_refl _), List.nil_append]) h
    refine ⟨fun hf => ?_, fun _ => ⟨k2, k3⟩, fun hc f hfm i h1 h2 => ?_⟩
    · rw [i1 hf, k1 hf, kdfOut, List.append_assoc]
    · by_cases hi : i = ctr + 1
      · rw [hi]; exact k4 hc f hfm
      · exact i3 hc f hfm i (by omega) (by omega)

theorem kdfOut_length {F : Bytes → Bytes} {seg : Nat} (hF : ∀ x, (F x).length = seg) {counter : Bool} {ps : List Sp800Param} {klen slen : Nat}
    (n i : Nat) (prev : Bytes) : (kdfOut F counter ps klen slen n i prev).length = n * seg := by
  induction n generalizing i prev with
  | zero => simp [kdfOut]
  | succ n ih => rw [kdfOut, List.length_append, hF, ih, Nat.succ_mul, Nat.add_comm]

theorem roundUp_ge {seg : Nat} (h : 0 < seg) (n : Nat) : n ≤ roundUp seg n := by
  unfold roundUp
  have h1 := Nat.div_add_mod (n + seg - 1) seg
  have h2 := Nat.mod_lt (n + seg - 1) h
  rw [Nat.mul_comm] at h1
  omega

theorem total_dvd (seg : Nat) (sizes : List Nat) : seg ∣ total seg sizes := by
  unfold total
  induction sizes with
  | nil => exact ⟨0, rfl⟩
  | cons n l ih => rw [List.map_cons, List.sum_cons]; exact Nat.dvd_add (Nat.dvd_mul_left _ _) ih

/-- **C39, slices.**  The slices of the keys follow each other without overlap and lie inside the output. -/
theorem C39_slices {seg : Nat} (h : 0 < seg) {sizes : List Nat} {j n : Nat} (hj : sizes[j]? = some n) :
    offset seg sizes j + n ≤ total seg sizes ∧ ∀ k, j < k → offset seg sizes j + n ≤ offset seg sizes k := by
  have hlt : j < sizes.length := by
    rw [List.getElem?_eq_some_iff] at hj; exact hj.1
  have step : ∀ k, j < k → offset seg sizes j + n ≤ offset seg sizes k := by
    intro k hk
    unfold offset
    have e1 : sizes.take k = sizes.take (j + 1) ++ (sizes.take k).drop (j + 1) := by
      have := List.take_append_drop (j + 1) (sizes.take k)
      rw [List.take_take, Nat.min_eq_left (by omega)] at this
      exact this.symm
    have e2 : sizes.take (j + 1) = sizes.take j ++ [n] := by
      rw [List.take_add_one, hj]; rfl
    rw [e1, e2]
    simp only [List.map_append, List.sum_append, List.map_cons, List.map_nil, List.sum_cons, List.sum_nil]
    have := roundUp_ge h n
    omega
  refine ⟨?_, step⟩
  have := step sizes.length hlt
  have e : offset seg sizes sizes.length = total seg sizes := by unfold offset total; rw [List.take_length]
  omega

theorem objs_lens {uid : Nat → Bytes} {key : Obj} {k : Nat} {l : List Template} {keys : List (Obj × Nat)}
    (h : sp800Objs uid key k l = .ok keys) : keys.length = l.length ∧
      ∀ p ∈ keys, p.1.getUlong CKA_VALUE_LEN = .ok p.2 ∧ 0 < p.2 ∧ p.2 < 2 ^ 32 := by
  induction l generalizing k keys with
  | nil => unfold sp800Objs at h; injection h with h; subst h; exact ⟨rfl, nofun⟩
  | cons t l ih =>
    unfold sp800Objs at h
    split at h
    · cases h
    rename_i p hp
    split at h
    · cases h
    rename_i ps hps
    injection h with h
    subst h
    obtain ⟨i1, i2⟩ := ih hps
    refine ⟨by simp [i1], ?_⟩
    rintro q (_ | ⟨_, hq⟩)
    · unfold sp800Obj at hp
      split at hp
      · cases hp
      split at hp
      · cases hp
      rename_i n hn
      split at hp
      · cases hp
      rename_i hr
      injection hp with hp
      subst hp
      exact ⟨hn, by omega, by omega⟩
    · exact i2 q hq

theorem put_value (o : Obj) (b : Bytes) : (o.put (Attr.ofBytes CKA_VALUE b)).getUlong CKA_VALUE_LEN = o.getUlong CKA_VALUE_LEN ∧
    (o.put (Attr.ofBytes CKA_VALUE b)).getBytes CKA_VALUE = .ok b := by
  constructor
  · unfold Obj.getUlong
    rw [find_put, if_neg (by simp [Attr.ofBytes]; decide)]
  · unfold Obj.getBytes
    rw [find_put, if_pos (by simp [Attr.ofBytes])]
    rfl

theorem cut_ok {seg : Nat} {dkm : Bytes} {cur : Nat} {keys : List (Obj × Nat)} {os : List Obj} (h : sp800Cut seg dkm cur keys = .ok os) :
    os.map (fun o => o.getUlong CKA_VALUE_LEN) = keys.map (fun p => p.1.getUlong CKA_VALUE_LEN) ∧
      ∀ (j : Nat) (o : Obj) (n : Nat), os[j]? = some o → (keys.map (·.2))[j]? = some n →
        o.getBytes CKA_VALUE = .ok ((dkm.drop (cur + offset seg (keys.map (·.2)) j)).take n) := by
  induction keys generalizing cur os with
  | nil => unfold sp800Cut at h; injection h with h; subst h; exact ⟨rfl, nofun⟩
  | cons p l ih =>
    obtain ⟨o, n⟩ := p
    unfold sp800Cut at h
    split at h
    · cases h
    split at h
    · cases h
    rename_i os' hos
    injection h with h
    subst h
    obtain ⟨i1, i2⟩ := ih hos
    refine ⟨by simp only [List.map_cons, i1, (put_value o _).1], ?_⟩
    intro j o' n' ho hn
    cases j with
    | zero =>
      simp only [List.getElem?_cons_zero, List.map_cons, Option.some.injEq] at ho hn
      subst ho hn
      rw [(put_value o _).2]
      simp [offset]
    | succ j =>
      simp only [List.getElem?_cons_succ, List.map_cons] at ho hn
      rw [i2 j o' n' ho hn]
      have : cur + offset seg (List.map (fun x => x.2) ((o, n) :: l)) (j + 1) = cur + segmentSize n seg + offset seg (List.map (fun x => x.2) l) j := by
        unfold offset
        simp only [List.map_cons, List.take_succ_cons, List.sum_cons]
        rw [← Nat.add_assoc]
        rfl
      rw [this]

theorem derive_parts {op : Sp800} {new : Obj → Res MacOp} {uid : Nat → Bytes} {key : Obj} {t : Template} {F : Bytes → Bytes} {seg : Nat}
    (hF : Computes new key F seg) {os : List Obj} (h : op.derive new uid key t = .ok os) {sizes : List Nat} (hs : keyLens os sizes) :
    sizes.length = op.addl.length + 1 ∧ (∀ n ∈ sizes, 0 < n ∧ n < 2 ^ 32) ∧ ∃ m dkm, new key = .ok m ∧
      sp800Loop new key op seg sizes.sum (total seg sizes) (total seg sizes / seg) 0 m [] = .ok dkm ∧
      ∀ (j : Nat) (o : Obj) (n : Nat), os[j]? = some o → sizes[j]? = some n → o.getBytes CKA_VALUE = .ok ((dkm.drop (offset seg sizes j)).take n) := by
  unfold Sp800.derive at h
  split at h
  · cases h
  split at h
  · cases h
  rename_i m hm
  have hlen : m.len = seg := by
    obtain ⟨m', h1, h2, _⟩ := hF
    rw [hm] at h1; injection h1 with h1; rw [h1]; exact h2
  simp only [hlen] at h
  split at h
  · cases h
  split at h
  · cases h
  rename_i keys hk
  split at h
  · cases h
  rename_i dkm hd
  obtain ⟨l1, l2⟩ := objs_lens hk
  obtain ⟨c1, c2⟩ := cut_ok h
  have hsz : sizes = keys.map (·.2) := by
    unfold keyLens at hs
    rw [c1] at hs
    have e : keys.map (fun p => p.1.getUlong CKA_VALUE_LEN) = (keys.map (·.2)).map Except.ok := by
      rw [List.map_map]
      exact List.map_congr_left fun p hp => (l2 p hp).1
    rw [e] at hs
    exact (List.map_inj_right (f := Except.ok) (fun a b h => by injection h)).1 hs.symm
  subst hsz
  refine ⟨by simp [l1], ?_, m, dkm, hm, ?_, fun j o n h1 h2 => ?_⟩
  · intro n hn
    obtain ⟨p, hp, rfl⟩ := List.mem_map.1 hn
    exact (l2 p hp).2
  · have : total seg (keys.map (·.2)) = (keys.map fun p => segmentSize p.2 seg).sum := by
      unfold total; rw [List.map_map]; rfl
    rw [this]; exact hd
  · have := c2 j o n h1 h2
    rwa [Nat.zero_add] at this

/-- **C39, lengths.**  Every key answered has a length, and there is one key for every template. -/
theorem C39_lengths {op : Sp800} {new : Obj → Res MacOp} {uid : Nat → Bytes} {key : Obj} {t : Template} {os : List Obj}
    (h : op.derive new uid key t = .ok os) : os.length = op.addl.length + 1 ∧ ∃ sizes, keyLens os sizes := by
  unfold Sp800.derive at h
  split at h
  · cases h
  split at h
  · cases h
  simp only at h
  split at h
  · cases h
  split at h
  · cases h
  rename_i keys hk
  split at h
  · cases h
  obtain ⟨l1, l2⟩ := objs_lens hk
  obtain ⟨c1, _⟩ := cut_ok h
  have hl := congrArg List.length c1
  simp only [List.length_map] at hl
  refine ⟨by rw [hl, l1]; simp, keys.map (·.2), ?_⟩
  unfold keyLens
  rw [c1, List.map_map]
  exact List.map_congr_left fun p hp => (l2 p hp).1

theorem total_pos {seg : Nat} (h : 0 < seg) {sizes : List Nat} (hne : sizes ≠ []) (hp : ∀ n ∈ sizes, 0 < n ∧ n < 2 ^ 32) : 0 < total seg sizes / seg := by
  cases sizes with
  | nil => exact absurd rfl hne
  | cons n l =>
    have h1 := roundUp_ge h n
    have h2 := (hp n (.head _)).1
    have h3 : roundUp seg n ≤ total seg (n :: l) := by unfold total; simp
    obtain ⟨k, hk⟩ := total_dvd seg (n :: l)
    rw [hk, Nat.mul_div_cancel_left _ h]
    cases k with
    | zero => omega
    | succ k => omega

/-- **C39, values.**  Each derived key holds its slice of the blocks of its mode, when the length fields can hold the lengths. -/
theorem C39_values {op : Sp800} {new : Obj → Res MacOp} {uid : Nat → Bytes} {key : Obj} {t : Template} {F : Bytes → Bytes} {seg : Nat}
    (hF : Computes new key F seg) {os : List Obj} (h : op.derive new uid key t = .ok os) {sizes : List Nat} (hs : keyLens os sizes)
    (hfit : lengthsFit op.params sizes.sum (total seg sizes)) {j n : Nat} {o : Obj} (ho : os[j]? = some o) (hn : sizes[j]? = some n) :
    ∃ v, o.getBytes CKA_VALUE = .ok v ∧ v.length = n ∧
      v = ((kdfOut F (op.mech == CKM_SP800_108_COUNTER_KDF) op.params sizes.sum (total seg sizes) (total seg sizes / seg) 1 op.iv).drop
        (offset seg sizes j)).take n := by
  obtain ⟨_, _, m, dkm, hm, hd, hv⟩ := derive_parts hF h hs
  obtain ⟨l1, _, _⟩ := loop_ok hF _ 0 (fun _ => hm) rfl hd
  have hseg : 0 < seg := by obtain ⟨_, _, _, h, _⟩ := hF; exact h
  have hFl : ∀ x, (F x).length = seg := by obtain ⟨_, _, _, _, h, _⟩ := hF; exact h
  have hdk := l1 hfit
  simp only [List.nil_append, if_true, Nat.zero_add] at hdk
  refine ⟨_, hv j o n ho hn, ?_, by rw [← hdk]⟩
  have h1 := (C39_slices hseg hn).1
  rw [List.length_take, List.length_drop, hdk, kdfOut_length hFl, Nat.div_mul_cancel (total_dvd seg sizes)]
  omega

/-- **C39, supported parameters.**  A derivation succeeds only with one of the two modes and fields that follow its rules. -/
theorem C39_fields {op : Sp800} {new : Obj → Res MacOp} {uid : Nat → Bytes} {key : Obj} {t : Template} {F : Bytes → Bytes} {seg : Nat}
    (hF : Computes new key F seg) {os : List Obj} (h : op.derive new uid key t = .ok os) :
    (op.mech = CKM_SP800_108_COUNTER_KDF ∨ op.mech = CKM_SP800_108_FEEDBACK_KDF) ∧
      fieldsOk (op.mech == CKM_SP800_108_COUNTER_KDF) op.params := by
  obtain ⟨_, sizes, hs⟩ := C39_lengths h
  obtain ⟨k1, k2, m, dkm, hm, hd, _⟩ := derive_parts hF h hs
  obtain ⟨_, l2, _⟩ := loop_ok hF _ 0 (fun _ => hm) rfl hd
  have hseg : 0 < seg := by obtain ⟨_, _, _, h, _⟩ := hF; exact h
  have := l2 (total_pos hseg (by intro e; rw [e] at k1; simp at k1) k2)
  exact ⟨this.2, this.1⟩

theorem flatten_inj {α : Type} {ps : List α} {f g : α → Bytes} (hl : ∀ p ∈ ps, (f p).length = (g p).length)
    (h : (ps.map f).flatten = (ps.map g).flatten) : ∀ p ∈ ps, f p = g p := by
  induction ps with
  | nil => nofun
  | cons p l ih =>
    simp only [List.map_cons, List.flatten_cons] at h
    obtain ⟨h1, h2⟩ := List.append_inj h (hl p (.head _))
    rintro q (_ | ⟨_, hq⟩)
    · exact h1
    · exact ih (fun q hq => hl q (.tail _ hq)) h2 q hq

theorem enc_length (le : Bool) (w n : Nat) : (enc le w n).length = w := by
  unfold enc; split
  · exact toLE_length w n
  · exact toBE_length w n

theorem enc_inj {le : Bool} {w a b : Nat} (ha : a < 256 ^ w) (hb : b < 256 ^ w) (h : enc le w a = enc le w b) : a = b := by
  unfold enc at h
  split at h
  · exact toLE_injective w a b ha hb h
  · unfold toBE at h
    exact toLE_injective w a b ha hb (List.reverse_inj.1 h)

/-- **C39, distinct blocks.**  In counter mode two blocks are never made from the same message, whatever the lengths say. -/
theorem C39_distinct {op : Sp800} {new : Obj → Res MacOp} {uid : Nat → Bytes} {key : Obj} {t : Template} {F : Bytes → Bytes} {seg : Nat}
    (hF : Computes new key F seg) {os : List Obj} (h : op.derive new uid key t = .ok os) {sizes : List Nat} (hs : keyLens os sizes)
    (hc : op.mech = CKM_SP800_108_COUNTER_KDF) {i j : Nat} (h1 : 1 ≤ i) (hij : i < j) (hj : j ≤ total seg sizes / seg) (p q : Bytes) :
    prfMsg true op.params p i sizes.sum (total seg sizes) ≠ prfMsg true op.params q j sizes.sum (total seg sizes) := by
  obtain ⟨_, _, m, dkm, hm, hd, _⟩ := derive_parts hF h hs
  obtain ⟨_, _, l3⟩ := loop_ok hF _ 0 (fun _ => hm) rfl hd
  obtain ⟨_, hok⟩ := C39_fields hF h
  rw [hc, beq_self_eq_true] at hok l3
  intro he
  unfold prfMsg at he
  have hex : ∃ f, .iteration f ∈ op.params := by
    have : 0 < op.params.countP isIter := by rw [hok.1]; decide
    obtain ⟨x, hx, hx'⟩ := List.countP_pos_iff.1 this
    cases x with
    | iteration f => exact ⟨f, hx⟩
    | _ => simp [isIter] at hx'
  obtain ⟨f, hf⟩ := hex
  have hlen : ∀ x ∈ op.params, (prfField true p i sizes.sum (total seg sizes) x).length = (prfField true q j sizes.sum (total seg sizes) x).length := by
    intro x _
    cases x <;> simp [prfField, enc_length]
  have he' := flatten_inj hlen he _ hf
  simp only [prfField, if_true] at he'
  have b1 := l3 rfl f hf i (by omega) (by omega)
  have b2 := l3 rfl f hf j (by omega) (by omega)
  have hb : f.bits ∈ [8, 16, 24, 32] := by
    have := hok.2.2.2 _ hf
    simp only [fieldOk, if_true] at this
    exact this.2
  have hw : 2 ^ f.bits = 256 ^ (f.bits / 8) := by
    simp only [List.mem_cons, List.not_mem_nil, or_false] at hb
    rcases hb with e | e | e | e <;> rw [e]
  rw [hw] at b1 b2
  have := enc_inj b1 b2 he'
  omega

theorem bbool_ok {b : UInt8} {r : Bool} (h : bbool b = .ok r) : b = if r then 1 else 0 := by
  unfold bbool at h
  split at h
  · injection h with h; subst h; assumption
  · split at h
    · injection h with h; subst h; assumption
    · cases h

theorem fmt_ok {p : PrfParam} {f : CtrFmt} (h : parseCounterFormat p = .ok f) : readsFmt p f := by
  unfold parseCounterFormat at h
  split at h
  · rename_i hc; injection h with h; subst h; exact .inl ⟨rfl, hc.1, hc.2⟩
  split at h
  · cases h
  rename_i hl
  split at h
  · cases h
  rename_i hn
  split at h
  · cases h
  rename_i le hb
  simp only at h
  split at h
  · injection h with h; subst h; exact .inr ⟨rfl, Decidable.not_not.1 hl, by simpa using hn, bbool_ok hb, rfl⟩
  · cases h

theorem param_ok {p : PrfParam} {x : Sp800Param} (h : parseParam p = .ok x) : readsAs p x := by
  have hm : ∀ {α : Type} {r : Res α} {c : α → Sp800Param}, r.map c = .ok x → ∃ a, r = .ok a ∧ c a = x := by
    intro α r c h
    cases r with
    | error r => cases h
    | ok a => injection h with h; exact ⟨a, rfl, h⟩
  unfold parseParam at h
  split at h
  · obtain ⟨f, h1, h2⟩ := hm h; subst h2; exact ⟨by assumption, fmt_ok h1⟩
  split at h
  · obtain ⟨f, h1, h2⟩ := hm h; subst h2; exact ⟨by assumption, fmt_ok h1⟩
  split at h
  · obtain ⟨b, h1, h2⟩ := hm h; subst h2
    unfold parseByteArray at h1
    split at h1
    · cases h1
    · rename_i hc
      injection h1 with h1
      exact ⟨by assumption, fun e => hc (.inl e), by simpa using fun e => hc (.inr e), h1.symm⟩
  split at h
  · obtain ⟨f, h1, h2⟩ := hm h; subst h2
    rename_i ht
    unfold parseDkmLength at h1
    split at h1
    · cases h1
    rename_i hl
    split at h1
    · cases h1
    rename_i hn
    simp only at h1
    split at h1
    · split at h1
      · cases h1
      rename_i le hb
      split at h1
      · injection h1 with h1; subst h1
        exact ⟨ht, Decidable.not_not.1 hl, by simpa using hn, rfl, bbool_ok hb, rfl⟩
      · cases h1
    · cases h1
  · cases h

/-- **C39, parameters as given.**  An operation is made only for the two modes, and it holds exactly what the application's structures say. -/
theorem C39_parse {mech prf : Nat} {raw : List PrfParam} {ivNull : Bool} {ivLen : Nat} {iv : Bytes} {addl : List Template} {op : Sp800}
    (h : sp800New mech prf raw ivNull ivLen iv addl = .ok op) :
    op.mech = mech ∧ op.prf = prf ∧ op.addl = addl ∧ (mech = CKM_SP800_108_COUNTER_KDF ∨ mech = CKM_SP800_108_FEEDBACK_KDF ∧ op.iv = iv.take ivLen) ∧
      op.params.length = raw.length ∧ ∀ (j : Nat) p, raw[j]? = some p → ∃ x, op.params[j]? = some x ∧ readsAs p x := by
  have hp : ∀ (raw : List PrfParam) (ps : List Sp800Param), parseParams raw = .ok ps →
      ps.length = raw.length ∧ ∀ (j : Nat) p, raw[j]? = some p → ∃ x, ps[j]? = some x ∧ readsAs p x := by
    intro raw
    induction raw with
    | nil => intro ps h; unfold parseParams at h; injection h with h; subst h; exact ⟨rfl, nofun⟩
    | cons p l ih =>
      intro ps h
      unfold parseParams at h
      split at h
      · cases h
      rename_i x hx
      split at h
      · cases h
      rename_i xs hxs
      injection h with h
      subst h
      obtain ⟨i1, i2⟩ := ih xs hxs
      refine ⟨by simp [i1], fun j q hq => ?_⟩
      cases j with
      | zero =>
        simp only [List.getElem?_cons_zero, Option.some.injEq] at hq
        subst hq
        exact ⟨x, rfl, param_ok hx⟩
      | succ j =>
        simp only [List.getElem?_cons_succ] at hq ⊢
        exact i2 j q hq
  unfold sp800New at h
  split at h
  · rename_i hc
    split at h
    · cases h
    rename_i ps hps
    injection h with h
    subst h
    exact ⟨rfl, rfl, rfl, .inl hc, hp raw ps hps⟩
  split at h
  · rename_i hc
    split at h
    · cases h
    split at h
    · cases h
    rename_i ps hps
    injection h with h
    subst h
    exact ⟨rfl, rfl, rfl, .inr ⟨hc, rfl⟩, hp raw ps hps⟩
  · cases h

/-- HMAC with any hash is such a PRF (C50). -/
theorem hmac_computes {a : HashAlg} (ha : HashOk a) (hp : 0 < a.hlen) {kt : Nat} {key : Obj} {m : MacOp} (h : hmacNew a kt key = .ok m) :
    ∃ v, key.getBytes CKA_VALUE = .ok v ∧ Computes (hmacNew a kt) key (fun x => hmac a v x) a.hlen := by
  have h0 := h
  unfold hmacNew at h
  repeat' split at h
  all_goals first | (cases h; done) | skip
  rename_i v hv
  injection h with h
  subst h
  refine ⟨v, hv, _, h0, rfl, hp, fun x => ?_, fun parts => ?_⟩
  · unfold hmac; exact ha.size _
  · obtain ⟨h1, h2⟩ := C50_multi ha v a.hlen (Nat.le_refl _) parts
    have key : ∀ (o : Hmac) (parts : List Bytes), (o.feed parts).1 = .ok () → parts.foldlM MacOp.update (.hmac o) = .ok (.hmac (o.feed parts).2) := by
      intro o parts
      induction parts generalizing o with
      | nil => intro _; rfl
      | cons b l ih =>
        intro h
        unfold Hmac.feed at h
        rw [List.foldlM_cons]
        unfold Hmac.feed
        generalize hu : o.update b = p at h
        obtain ⟨r, o1⟩ := p
        simp only at h
        cases r with
        | error r => cases h
        | ok u =>
          simp only at h
          simp only [MacOp.update, hu]
          exact ih o1 h
    refine ⟨_, key _ parts h1, ?_⟩
    unfold MacOp.final
    simp only
    rw [h2, List.take_of_length_le]
    unfold hmac
    rw [ha.size]
    exact Nat.le_refl _

/-- So is any other function with answers of one size. -/
theorem other_computes {f : Bytes → Bytes} {n : Nat} (hn : 0 < n) (hf : ∀ x, (f x).length = n) (key : Obj) :
    Computes (fun _ => .ok (.other f n [])) key f n := by
  refine ⟨_, rfl, rfl, hn, hf, fun parts => ⟨.other f n parts.flatten, ?_, if_pos rfl⟩⟩
  have h : ∀ (l : List Bytes) (fed : Bytes), l.foldlM MacOp.update (.other f n fed) = .ok (.other f n (fed ++ l.flatten)) := by
    intro l
    induction l with
    | nil => intro fed; simp; rfl
    | cons b l ih =>
      intro fed
      rw [List.foldlM_cons]
      simp only [MacOp.update]
      show l.foldlM MacOp.update (.other f n (fed ++ b)) = _
      rw [ih, List.flatten_cons, List.append_assoc]
  simpa using h parts []

/-! ### Examples -/

/-- A generic secret that may derive. -/
def exKdfKey : Obj :=
  ⟨1, 0, CKO_SECRET_KEY, [.ofUlong CKA_CLASS CKO_SECRET_KEY, .ofUlong CKA_KEY_TYPE CKK_GENERIC_SECRET, .ofBool CKA_DERIVE true,
    .ofBytes CKA_VALUE [1, 2, 3, 4]]⟩

def exKdfTmpl (n : Nat) : Template := [.ofUlong CKA_CLASS CKO_SECRET_KEY, .ofUlong CKA_KEY_TYPE CKK_GENERIC_SECRET, .ofUlong CKA_VALUE_LEN n]

def exKdf (mech : Nat) (ps : List Sp800Param) : Sp800 := ⟨mech, CKM_SHA256_HMAC, ps, [9, 9], [exKdfTmpl 4, exKdfTmpl 1]⟩

def exKdfNew : Obj → Res MacOp := hmacNew exHash CKK_SHA256_HMAC

/-- What a derivation answers: values and lengths. -/
def kdfAnswer (r : Res (List Obj)) : Res (List (Res Bytes × Res Nat)) :=
  r.map fun l => l.map fun o => (o.getBytes CKA_VALUE, o.getUlong CKA_VALUE_LEN)

def exCounterFields : List Sp800Param := [.iteration ⟨true, true, 16⟩, .byteArray [7], .dkmLength ⟨1, false, 32⟩]
def exFeedbackFields : List Sp800Param := [.counter ⟨true, false, 24⟩, .iteration ⟨false, false, 16⟩, .dkmLength ⟨2, true, 64⟩]

def exKdfUid (n : Nat) : Bytes := [UInt8.ofNat n]

/-- Both modes answer three keys; the one with no iteration variable is refused. -/
theorem exKdf_runs :
    kdfAnswer ((exKdf CKM_SP800_108_COUNTER_KDF exCounterFields).derive exKdfNew exKdfUid exKdfKey (exKdfTmpl 3)) =
      .ok [(.ok [125, 6, 92], .ok 3), (.ok [59, 6, 26, 6], .ok 4), (.ok [249], .ok 1)] ∧
    (kdfAnswer ((exKdf CKM_SP800_108_FEEDBACK_KDF exFeedbackFields).derive exKdfNew exKdfUid exKdfKey (exKdfTmpl 3))).isOk = true ∧
    kdfAnswer ((exKdf CKM_SP800_108_COUNTER_KDF [.byteArray [7]]).derive exKdfNew exKdfUid exKdfKey (exKdfTmpl 3)) = .error .mechanismParamInvalid ∧
    kdfAnswer ((exKdf CKM_SP800_108_COUNTER_KDF exFeedbackFields).derive exKdfNew exKdfUid exKdfKey (exKdfTmpl 3)) = .error .mechanismParamInvalid := by
  refine ⟨?_, ?_, ?_, ?_⟩ <;> decide +kernel

/-- The hypotheses of the theorems are met by the counter example. -/
example : ∃ os, (exKdf CKM_SP800_108_COUNTER_KDF exCounterFields).derive exKdfNew exKdfUid exKdfKey (exKdfTmpl 3) = .ok os ∧
    keyLens os [3, 4, 1] ∧ lengthsFit exCounterFields [3, 4, 1].sum (total 2 [3, 4, 1]) ∧
    Computes exKdfNew exKdfKey (fun x => hmac exHash [1, 2, 3, 4] x) 2 ∧ total 2 [3, 4, 1] / 2 = 5 := by
  have hr := exKdf_runs.1
  have hc : ∃ v, exKdfKey.getBytes CKA_VALUE = .ok v ∧ Computes exKdfNew exKdfKey (fun x => hmac exHash v x) 2 := by
    have : ∃ m, exKdfNew exKdfKey = .ok m := ⟨_, rfl⟩
    obtain ⟨m, hm⟩ := this
    exact hmac_computes exHash_ok (by decide) hm
  obtain ⟨v, hv, hc⟩ := hc
  have : v = [1, 2, 3, 4] := by
    have e : exKdfKey.getBytes CKA_VALUE = .ok [1, 2, 3, 4] := by decide +kernel
    rw [e] at hv; injection hv with hv; exact hv.symm
  subst this
  cases hd : (exKdf CKM_SP800_108_COUNTER_KDF exCounterFields).derive exKdfNew exKdfUid exKdfKey (exKdfTmpl 3) with
  | error r => rw [hd] at hr; cases hr
  | ok os =>
    refine ⟨os, rfl, ?_, ?_, hc, by decide⟩
    · rw [hd] at hr
      simp only [kdfAnswer, Except.map, Except.ok.injEq] at hr
      have := congrArg (List.map Prod.snd) hr
      simp only [List.map_map] at this
      exact this
    · intro f hf
      simp only [exCounterFields, List.mem_cons, List.not_mem_nil, or_false] at hf
      rcases hf with hf | hf | hf
      · cases hf
      · cases hf
      · injection hf with hf; subst hf; decide

/-- A PRF with blocks of 255 bytes. -/
def exWide (x : Bytes) : Bytes := List.replicate 255 (x.foldl (· + ·) 0)

set_option maxRecDepth 5000 in
/-- The full property is false: the length is taken modulo 2^w - 1 (`src/native/sp800_108.rs:209`), so a total of 255 in an 8-bit field is
fed as 0 and the key is not the specified one. -/
theorem C39_length_violation : ∃ (op : Sp800) (new : Obj → Res MacOp) (F : Bytes → Bytes) (key : Obj) (uid : Nat → Bytes) (t : Template)
    (v : Bytes), Computes new key F 255 ∧ kdfAnswer (op.derive new uid key t) = .ok [(.ok v, .ok 255)] ∧
      (∀ f, .dkmLength f ∈ op.params → 255 < 2 ^ f.bits) ∧ v ≠ (kdfOut F true op.params 255 255 1 1 op.iv).take 255 := by
  refine ⟨⟨CKM_SP800_108_COUNTER_KDF, CKM_SHA256_HMAC, [.iteration ⟨true, false, 8⟩, .dkmLength ⟨1, false, 8⟩], [], []⟩,
    fun _ => .ok (.other exWide 255 []), exWide, exKdfKey, exKdfUid, exKdfTmpl 255, List.replicate 255 1,
    other_computes (by decide) (fun _ => by simp [exWide]) _, by decide +kernel, ?_, by decide +kernel⟩
  intro f hf
  simp only [List.mem_cons, List.not_mem_nil, or_false] at hf
  rcases hf with hf | hf
  · cases hf
  · injection hf with hf; subst hf; decide

/-- The full property is false: a length field of 40 bits is accepted by the parser and panics in the derivation
(`src/native/sp800_108.rs:240-247` takes bytes 3 to 8 of a `u32`). -/
theorem C39_width_violation : ∃ (raw : List PrfParam) (op : Sp800),
    sp800New CKM_SP800_108_COUNTER_KDF CKM_SHA256_HMAC raw true 0 [] [] = .ok op ∧
      kdfAnswer (op.derive exKdfNew exKdfUid exKdfKey (exKdfTmpl 3)) = .error .panic := by
  refine ⟨[⟨1, false, 16, [0, 0, 0, 0, 0, 0, 0, 0] ++ ulongBytes 8⟩, ⟨3, false, 24, ulongBytes 1 ++ [0, 0, 0, 0, 0, 0, 0, 0] ++ ulongBytes 40⟩],
    ⟨CKM_SP800_108_COUNTER_KDF, CKM_SHA256_HMAC, [.iteration ⟨true, false, 8⟩, .dkmLength ⟨1, false, 40⟩], [], []⟩, by decide +kernel,
    by decide +kernel⟩

end Kry

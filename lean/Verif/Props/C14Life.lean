import Verif.Proofs.StickyDisk
import Verif.Proofs.Orderly
import Verif.Props.C19
import Verif.Props.ExMechs

/-!
# C14 along every run

`C14_handle`: a one-way value that an object reports is the one it reports ever after under the same handle.
`C14_token`: a token object, known by its CKA_UNIQUE_ID, keeps it across restarts, crashes and re-initialisation of
the token.  Both for tokens that do not merge duplicates; `C14_dedup_violation` shows why.
-/

namespace Kry.Spec

/-- The one-way attributes with the value they keep. -/
def oneWay : List (Nat × Bool) :=
  [(CKA_SENSITIVE, true), (CKA_WRAP_WITH_TRUSTED, true), (CKA_EXTRACTABLE, false), (CKA_COPYABLE, false)]

/-- CK_BBOOL. -/
def bbool (v : Bool) : Bytes := [if v then 1 else 0]

end Kry.Spec

namespace Kry
open Spec

theorem oneWay_all : ∀ p ∈ oneWay, OneWay p.1 p.2 := by
  intro p hp
  simp only [oneWay, List.mem_cons, List.not_mem_nil, or_false] at hp
  rcases hp with rfl | rfl | rfl | rfl
  · exact ⟨guarded_sensitive, by decide +kernel, by decide +kernel, by decide, by decide, by decide, by decide⟩
  · exact ⟨guarded_wwt, by decide +kernel, by decide +kernel, by decide, by decide, by decide, by decide⟩
  · exact ⟨guarded_extractable, by decide +kernel, by decide +kernel, by decide, by decide, by decide, by decide⟩
  · exact ⟨guarded_copyable, by decide +kernel, by decide +kernel, by decide, by decide, by decide, by decide⟩

section
variable {M : Mechs} {C : Crypto} {O : Oracle} {ty : Nat} {v : Bool}

theorem OneWay.plainTy (w : OneWay ty v) : plainTy ty := plain_of (Ne.symm w.cls) w.plain

/-- No loaded token merges duplicates. -/
def Unmerged (s : St) : Prop := ∀ i sl, AMap.get s.slots i = some sl → sl.token.cfg.dedup = none

theorem unmerged_step {e : Env} {s : St} {c : Call} (hi : Inv s) (hm : noMerge c) (h : Unmerged s) :
    Unmerged (step M C O e s c).2 := by
  by_cases h1 : c = .finalize
  · subst h1
    simp only [step, fnFinalize]
    split
    · exact h
    · intro i sl hs; cases hs
  by_cases h2 : c = .crash
  · subst h2; intro i sl hs; cases hs
  intro i sl hs'
  cases hs : AMap.get s.slots i with
  | some sl0 =>
    obtain ⟨sl2, hs2, p⟩ := step_path (M := M) (O := O) (e := e) (C := C) hi hs h1 h2
    rw [hs2] at hs'; injection hs' with hs'; subst hs'
    exact TPath.inv (P := fun t => t.cfg.dedup = none) (fun _ _ x p => by rw [prim_cfg x]; exact p) p (h i sl0 hs)
  | none =>
    obtain ⟨e', cfg, conf, hcc, hmem, _, hnew⟩ := step_new hs hs'
    subst hcc
    rw [cfg_new hnew]; exact hm _ hmem

theorem unmerged_run (tr : Trace) {s : St} (hi : Inv s) (hm : ∀ p ∈ tr, noMerge p.2) (h : Unmerged s) :
    Unmerged (run M C O s tr) := by
  induction tr generalizing s with
  | nil => exact h
  | cons p tr ih =>
    exact ih (inv_step (C := C) M O p.1 s p.2 hi) (fun q hq => hm q (.tail _ hq)) (unmerged_step hi (hm p (.head _)) h)

/-- The stored value of a boolean. -/
theorem row_value {w : DbVal} {a : Attr} (hk : attrKind ty = some .bool) (hd : decodeRow ty w = .ok a) :
    ∃ b, a = Attr.ofBool ty b ∧ a.value = bbool b := by
  obtain ⟨b, hb⟩ := decodeRow_isBool hk hd
  exact ⟨b, hb, by rw [hb]; rfl⟩

theorem bbool_inj {x y : Bool} (h : bbool x = bbool y) : x = y := by cases x <;> cases y <;> simp_all [bbool]

/-- What is reported is known. -/
theorem held_of (w : OneWay ty v) {s : St} (hi : Inv s) (hv : HInv s) (ht : TInv s) (hn : OInv s) (hu : Unmerged s)
    {h i n : Nat} (hs : onSlot M C O s h i) (hr : reports M C O s h n ty (bbool v)) : Held ty v i n s := by
  obtain ⟨i', sl, x, e, hints, o, a, hm, hsl, hx, hl, hin, _, hf, _, hval⟩ := reports_obj hi hr
  rw [(onSlot_iff hi).1 hs] at hm; injection hm with hm; subst hm
  have hok := (hv i sl hsl).ok
  have ok := ht.slots i sl hsl
  refine ⟨sl, hsl, ?_⟩
  unfold Token.looked at hl
  cases hse : AMap.get sl.token.sess n with
  | some q =>
    rw [hse] at hl
    injection hl with hl; subst hl
    obtain ⟨_, u, hg, _⟩ := hok.sess n _ hse
    refine ⟨hok, ok, (hok.hs.low n u hg).2, hu i sl hsl, ?_, ?_⟩
    · intro o' ho'
      rw [hse] at ho'; injection ho' with ho'; subst ho'
      obtain ⟨b, hb⟩ := ((hn i sl hsl n _ hse).neat a (find_mem hf)).1 (by rw [find_typ hf]; exact w.kind)
      unfold Holds Obj.getBool
      rw [hf]
      rw [hb] at hval ⊢
      have : b = v := bbool_inj hval
      subst this
      cases b <;> simp [Attr.ofBool, Attr.toBool]
    · intro u r x _ hnone
      rw [hse] at hnone; cases hnone
  | none =>
    rw [hse] at hl
    obtain ⟨u, rows, hg, hrow, _, _, hall⟩ := fetch_row ok hl
    refine ⟨hok, ok, (hok.hs.low n u hg).2, hu i sl hsl, ?_, ?_⟩
    · intro o' ho'; rw [hse] at ho'; cases ho'
    · intro u' r x' hg' _ hr' hx' hdec
      rw [hg] at hg'; injection hg' with hg'; subst hg'
      rw [hrow] at hr'; injection hr' with hr'; subst hr'
      have := hall ty w.plainTy (.inl (mem_fetchHints hin))
      rw [hx'] at this
      obtain ⟨a', ha', hf'⟩ := this
      rw [hf] at hf'; injection hf' with hf'; subst hf'
      rw [hdec] at ha'
      injection ha' with ha'
      rw [← ha'] at hval
      have : (!v) = v := bbool_inj hval
      cases v <;> cases this

/-- What is known is reported. -/
theorem of_held (w : OneWay ty v) {s : St} (hi : Inv s) (ht : TInv s) (hn : OInv s)
    {h i n : Nat} (hs : onSlot M C O s h i) (hh : Held ty v i n s) {b : Bytes} (hr : reports M C O s h n ty b) :
    b = bbool v := by
  obtain ⟨i', sl, x, e, hints, o, a, hm, hsl, hx, hl, hin, _, hf, _, hval⟩ := reports_obj hi hr
  rw [(onSlot_iff hi).1 hs] at hm; injection hm with hm; subst hm
  obtain ⟨sl', hsl', k⟩ := hh
  rw [hsl] at hsl'; injection hsl' with hsl'; subst hsl'
  unfold Token.looked at hl
  cases hse : AMap.get sl.token.sess n with
  | some q =>
    rw [hse] at hl
    injection hl with hl; subst hl
    obtain ⟨b', hb⟩ := ((hn i sl hsl n _ hse).neat a (find_mem hf)).1 (by rw [find_typ hf]; exact w.kind)
    have hh := k.mem _ hse
    unfold Holds Obj.getBool at hh
    rw [hf] at hh
    rw [hb] at hval hh
    rw [← hval]
    show bbool b' = _
    have : b' ≠ !v := by
      intro he
      rw [he] at hh
      exact hh (by cases v <;> rfl)
    rw [show b' = v by revert this; clear hh hb hval; cases b' <;> cases v <;> decide]
  | none =>
    rw [hse] at hl
    obtain ⟨u, rows, hg, hrow, _, _, hall⟩ := fetch_row k.tbl hl
    have := hall ty w.plainTy (.inl (mem_fetchHints hin))
    split at this
    · rw [this] at hf; cases hf
    · rename_i x' hx'
      obtain ⟨a', ha', hf'⟩ := this
      rw [hf] at hf'; injection hf' with hf'; subst hf'
      obtain ⟨b', hb, hbv⟩ := row_value w.kind ha'
      have := k.row u rows x' hg hse hrow hx'
      rw [ha', hb] at this
      rw [← hval, hbv]
      cases b' <;> cases v <;> simp_all

theorem lasting_of (w : OneWay ty v) {s : St} (hi : Inv s) (hv : HInv s) (ht : TInv s) (hu : Unmerged s)
    {h i n : Nat} {u : Bytes} (hs : onSlot M C O s h i) (htok : sessionObj s i n = none)
    (hid : reports M C O s h n CKA_UNIQUE_ID u)
    (hr : reports M C O s h n ty (bbool v)) : Lasting ty v i u s := by
  obtain ⟨i', sl, x, e, hints, o, a, hm, hsl, hx, hl, hin, _, hf, _, hval⟩ := reports_obj hi hr
  obtain ⟨i2, sl2, hm2, hs2, hg2⟩ := reports_uid hi hv ht hid
  rw [hm] at hm2; injection hm2 with hm2; subst hm2
  rw [hsl] at hs2; injection hs2 with hs2; subst hs2
  rw [(onSlot_iff hi).1 hs] at hm; injection hm with hm; subst hm
  have ok := ht.slots i sl hsl
  have hse : AMap.get sl.token.sess n = none := by
    unfold sessionObj at htok
    rw [hsl] at htok; exact htok
  unfold Token.looked at hl
  rw [hse] at hl
  obtain ⟨u', rows, hg, hrow, _, _, hall⟩ := fetch_row ok hl
  rw [hg] at hg2; injection hg2 with hg2; subst hg2
  unfold Lasting
  rw [hsl]
  refine ⟨ok, hu i sl hsl, ?_⟩
  intro r x' hr' hx' hdec
  rw [hrow] at hr'; injection hr' with hr'; subst hr'
  have := hall ty w.plainTy (.inl (mem_fetchHints hin))
  rw [hx'] at this
  obtain ⟨a', ha', hf'⟩ := this
  rw [hf] at hf'; injection hf' with hf'; subst hf'
  rw [hdec] at ha'
  injection ha' with ha'
  rw [← ha'] at hval
  have : (!v) = v := bbool_inj hval
  cases v <;> cases this

theorem of_lasting (w : OneWay ty v) {s : St} (hi : Inv s) (hv : HInv s) (ht : TInv s)
    {h i n : Nat} {u : Bytes} (hs : onSlot M C O s h i) (htok : sessionObj s i n = none)
    (hid : reports M C O s h n CKA_UNIQUE_ID u) (hl : Lasting ty v i u s) {b : Bytes}
    (hr : reports M C O s h n ty b) : b = bbool v := by
  obtain ⟨i', sl, x, e, hints, o, a, hm, hsl, hx, hl', hin, _, hf, _, hval⟩ := reports_obj hi hr
  obtain ⟨i2, sl2, hm2, hs2, hg2⟩ := reports_uid hi hv ht hid
  rw [hm] at hm2; injection hm2 with hm2; subst hm2
  rw [hsl] at hs2; injection hs2 with hs2; subst hs2
  rw [(onSlot_iff hi).1 hs] at hm; injection hm with hm; subst hm
  have hse : AMap.get sl.token.sess n = none := by
    unfold sessionObj at htok
    rw [hsl] at htok; exact htok
  unfold Token.looked at hl'
  rw [hse] at hl'
  obtain ⟨u', rows, hg, hrow, _, _, hall⟩ := fetch_row (ht.slots i sl hsl) hl'
  rw [hg] at hg2; injection hg2 with hg2; subst hg2
  unfold Lasting at hl
  rw [hsl] at hl
  have := hall ty w.plainTy (.inl (mem_fetchHints hin))
  split at this
  · rw [this] at hf; cases hf
  · rename_i x' hx'
    obtain ⟨a', ha', hf'⟩ := this
    rw [hf] at hf'; injection hf' with hf'; subst hf'
    obtain ⟨b', hb, hbv⟩ := row_value w.kind ha'
    have := hl.row rows x' hrow hx'
    rw [ha', hb] at this
    rw [← hval, hbv]
    cases b' <;> cases v <;> simp_all

theorem run_append (s : St) (a b : Trace) : run M C O s (a ++ b) = run M C O (run M C O s a) b := by
  induction a generalizing s with
  | nil => rfl
  | cons p a ih => exact ih _

end

variable (M : Mechs) (C : Crypto) (O : Oracle)

/-- **C14**: once an object reports the one-way value, it reports no other under the same handle, whatever is called, on
every path that does not leave the library or re-initialise the token, and does not merge duplicates. -/
theorem C14_handle (hM : OrderlyMechs M) (d : List (Nat × Db)) (hd : ∀ p ∈ d, TblOk p.2.objs) (tr₁ tr₂ : Trace)
    (hm : ∀ p ∈ tr₁, noMerge p.2) (i n h h' : Nat) (p : Nat × Bool) (hp : p ∈ oneWay)
    (hs : onSlot M C O (after M C O d tr₁) h i) (hr : reports M C O (after M C O d tr₁) h n p.1 (bbool p.2))
    (hc : ∀ q ∈ tr₂, calm i q.2 = true) (hs' : onSlot M C O (after M C O d (tr₁ ++ tr₂)) h' i) (b : Bytes)
    (hr' : reports M C O (after M C O d (tr₁ ++ tr₂)) h' n p.1 b) : b = bbool p.2 := by
  have w := oneWay_all p hp
  have hi : Inv (after M C O d tr₁) := inv_reach M O d tr₁
  have hh : Held p.1 p.2 i n (after M C O d tr₁) :=
    held_of w hi (hinv_reach M O d tr₁) (tinv_reach M O hd tr₁) (oinv_reach hM hd tr₁)
      (unmerged_run tr₁ (inv_reach (C := C) M O d []) hm (by intro i sl hs; cases hs)) hs hr
  have e : after M C O d (tr₁ ++ tr₂) = run M C O (after M C O d tr₁) tr₂ := run_append _ _ _
  have hh' : Held p.1 p.2 i n (after M C O d (tr₁ ++ tr₂)) := by rw [e]; exact held_run w tr₂ hi hc hh
  exact of_held w (inv_reach M O d _) (tinv_reach M O hd _) (oinv_reach hM hd _) hs' hh' hr'

/-- **C14**, for token objects, known by their CKA_UNIQUE_ID: across leaving and entering the library, crashes, failures of
the storage.  Nothing made in between has that identifier. -/
theorem C14_token (hM : HonoursId M) (d : List (Nat × Db)) (hd : ∀ p ∈ d, TblOk p.2.objs) (tr₁ tr₂ : Trace)
    (hm : ∀ p ∈ tr₁ ++ tr₂, noMerge p.2) (i n m h h' : Nat) (u : Bytes) (p : Nat × Bool) (hp : p ∈ oneWay)
    (hs : onSlot M C O (after M C O d tr₁) h i) (htok : sessionObj (after M C O d tr₁) i n = none)
    (hid : reports M C O (after M C O d tr₁) h n CKA_UNIQUE_ID u)
    (hr : reports M C O (after M C O d tr₁) h n p.1 (bbool p.2))
    (hdraw : ∀ q ∈ tr₂, ∀ r, q.1.uuid r ≠ u) (hask : ∀ q ∈ tr₂, ¬ asksId q.2 u)
    (hs' : onSlot M C O (after M C O d (tr₁ ++ tr₂)) h' i)
    (htok' : sessionObj (after M C O d (tr₁ ++ tr₂)) i m = none)
    (hid' : reports M C O (after M C O d (tr₁ ++ tr₂)) h' m CKA_UNIQUE_ID u) (b : Bytes)
    (hr' : reports M C O (after M C O d (tr₁ ++ tr₂)) h' m p.1 b) : b = bbool p.2 := by
  have w := oneWay_all p hp
  have hi : Inv (after M C O d tr₁) := inv_reach M O d tr₁
  have ht : TInv (after M C O d tr₁) := tinv_reach M O hd tr₁
  have hh : Lasting p.1 p.2 i u (after M C O d tr₁) :=
    lasting_of w hi (hinv_reach M O d tr₁) ht
      (unmerged_run tr₁ (inv_reach (C := C) M O d []) (fun q hq => hm q (List.mem_append_left _ hq))
        (by intro i sl hs; cases hs)) hs htok hid hr
  have e : after M C O d (tr₁ ++ tr₂) = run M C O (after M C O d tr₁) tr₂ := run_append _ _ _
  have hh' : Lasting p.1 p.2 i u (after M C O d (tr₁ ++ tr₂)) := by
    rw [e]
    exact lasting_run w tr₂ _ i u hi ht (fun q hq => hm q (List.mem_append_right _ hq))
      (fun q hq sl o mk => ids_made hM mk (hdraw q hq) (hask q hq)) hh
  exact of_lasting w (inv_reach M O d _) (hinv_reach M O d _) (tinv_reach M O hd _) hs' htok' hid' hh' hr'

/-! ## A history -/

/-- A token key that is not extractable and cannot be copied (8) and an extractable session key (9). -/
def exC14Life : Trace := exStart ++
  [(exEnv 6, .login 1 CKU_USER exPin),
   (exEnv 7, .sess 1 (.createObject (exAesTemplate ++ [.ofBool CKA_TOKEN true, .ofBool CKA_COPYABLE false,
     .ofBool CKA_EXTRACTABLE false, .mk' CKA_ID [5]]))),
   (exEnv 8, .sess 1 (.createObject (exAesTemplate ++ [.ofBool CKA_SENSITIVE false, .ofBool CKA_EXTRACTABLE true])))]

/-- Attempts to undo the values. -/
def exC14More : Trace :=
  [(exEnv 9, .sess 1 (.setAttr 8 [.ofBool CKA_EXTRACTABLE true])),
   (exEnv 10, .sess 1 (.setAttr 9 [.ofBool CKA_SENSITIVE true])),
   (exEnv 11, .sess 1 (.setAttr 9 [.ofBool CKA_SENSITIVE false]))]

/-- A restart; the same key is looked up again (its handle is 8 again, by chance). -/
def exC14Restart : Trace :=
  [(exEnv 12, .finalize), (exEnv 13, .initialize exConf),
   (exEnv 14, .openSession 7 (CKF_RW_SESSION ||| CKF_SERIAL_SESSION)),
   (exEnv 15, .login 1 CKU_USER exPin), (exEnv 16, .sess 1 (.findInit [.ofUlong CKA_CLASS CKO_SECRET_KEY])),
   (exEnv 17, .sess 1 (.find 9)), (exEnv 18, .sess 1 .findFinal)]

set_option maxRecDepth 10000 in
example : (exOuts (exC14Life ++ exC14More ++ exC14Restart)).drop 6 =
    [.ok, .handle 8, .handle 9, .err .attrReadOnly, .ok, .err .attrReadOnly, .ok, .ok, .handle 1, .ok, .ok,
     .handles [8], .ok] := by decide +kernel

set_option maxRecDepth 10000 in
/-- The hypotheses of `C14_handle` for objects 8 and 9, before and after the attempts. -/
example : OrderlyMechs exMechs ∧ (∀ p ∈ exC14Life, noMerge p.2) ∧ (∀ q ∈ exC14More, calm 7 q.2 = true) ∧
    onSlot exMechs exCrypto exOracle (exRun exC14Life) 1 7 ∧
    reports exMechs exCrypto exOracle (exRun exC14Life) 1 8 CKA_EXTRACTABLE (bbool false) ∧
    reports exMechs exCrypto exOracle (exRun exC14Life) 1 8 CKA_COPYABLE (bbool false) ∧
    reports exMechs exCrypto exOracle (exRun exC14Life) 1 9 CKA_WRAP_WITH_TRUSTED (bbool true) ∧
    onSlot exMechs exCrypto exOracle (exRun (exC14Life ++ exC14More)) 1 7 ∧
    reports exMechs exCrypto exOracle (exRun (exC14Life ++ exC14More)) 1 8 CKA_EXTRACTABLE (bbool false) := by
  refine ⟨exMechs_orderly, ?_, by decide, ⟨quietEnv, .rwUser, 6, by decide +kernel⟩, ?_, ?_, ?_, ⟨quietEnv, .rwUser, 6, by decide +kernel⟩, ?_⟩
  · intro p hp
    simp only [exC14Life, exStart, List.cons_append, List.nil_append, List.mem_cons, List.not_mem_nil, or_false] at hp
    rcases hp with rfl | rfl | rfl | rfl | rfl | rfl | rfl | rfl | rfl <;> simp [noMerge, exConf]
  · exact ⟨exEnv 0, ⟨CKA_EXTRACTABLE, false, 1, [9]⟩, ⟨CKA_EXTRACTABLE, false, 1, [0]⟩, rfl, rfl, by decide +kernel, rfl⟩
  · exact ⟨exEnv 0, ⟨CKA_COPYABLE, false, 1, [9]⟩, ⟨CKA_COPYABLE, false, 1, [0]⟩, rfl, rfl, by decide +kernel, rfl⟩
  · exact ⟨exEnv 0, ⟨CKA_WRAP_WITH_TRUSTED, false, 1, [9]⟩, ⟨CKA_WRAP_WITH_TRUSTED, false, 1, [1]⟩, rfl, rfl,
      by decide +kernel, rfl⟩
  · exact ⟨exEnv 0, ⟨CKA_EXTRACTABLE, false, 1, [9]⟩, ⟨CKA_EXTRACTABLE, false, 1, [0]⟩, rfl, rfl, by decide +kernel, rfl⟩

set_option maxRecDepth 10000 in
/-- The hypotheses of `C14_token`: object 8 before and after the restart. -/
example : HonoursId exMechs ∧ (∀ q ∈ exC14More ++ exC14Restart, noMerge q.2 ∧ (∀ r, q.1.uuid r ≠ [97, 104, 97]) ∧
      ¬ asksId q.2 [97, 104, 97]) ∧
    sessionObj (exRun exC14Life) 7 8 = none ∧
    reports exMechs exCrypto exOracle (exRun exC14Life) 1 8 CKA_UNIQUE_ID [97, 104, 97] ∧
    sessionObj (exRun (exC14Life ++ exC14More ++ exC14Restart)) 7 8 = none ∧
    reports exMechs exCrypto exOracle (exRun (exC14Life ++ exC14More ++ exC14Restart)) 1 8 CKA_UNIQUE_ID [97, 104, 97] ∧
    reports exMechs exCrypto exOracle (exRun (exC14Life ++ exC14More ++ exC14Restart)) 1 8 CKA_EXTRACTABLE
      (bbool false) := by
  refine ⟨exMechs_ids, ?_, by decide +kernel, ?_, by decide +kernel, ?_, ?_⟩
  · intro p hp
    simp only [exC14More, exC14Restart, List.cons_append, List.nil_append, List.mem_cons, List.not_mem_nil, or_false] at hp
    rcases hp with rfl | rfl | rfl | rfl | rfl | rfl | rfl | rfl | rfl | rfl <;>
      refine ⟨by simp [noMerge, exConf], fun q h => by simp [exEnv] at h, ?_⟩ <;>
      (rintro ⟨tm, ht, _⟩; simp [templates] at ht)
  · exact ⟨exEnv 0, ⟨CKA_UNIQUE_ID, false, 3, [9, 9, 9]⟩, ⟨CKA_UNIQUE_ID, false, 3, [97, 104, 97]⟩, rfl, rfl,
      by decide +kernel, rfl⟩
  · exact ⟨exEnv 0, ⟨CKA_UNIQUE_ID, false, 3, [9, 9, 9]⟩, ⟨CKA_UNIQUE_ID, false, 3, [97, 104, 97]⟩, rfl, rfl,
      by decide +kernel, rfl⟩
  · exact ⟨exEnv 0, ⟨CKA_EXTRACTABLE, false, 1, [9]⟩, ⟨CKA_EXTRACTABLE, false, 1, [0]⟩, rfl, rfl, by decide +kernel, rfl⟩

/-! ## What does not hold -/

/-- A slot that merges duplicates, as for NSS configurations (`src/config.rs:463`). -/
def exConfAll : List (Nat × TokCfg) := [(7, ⟨[CKM_SHA256, CKM_AES_ECB], none, some .all⟩)]

def exMerge : Trace := (exEnv 0, .initialize exConfAll) :: exC14Life.drop 1

set_option maxRecDepth 10000 in
/-- **Counterexample**: with `objects_dedup = "All"`, C_CreateObject of a key with the CKA_ID of a stored one answers the
handle of the stored one and writes the new attributes over the old (`src/token.rs:651-711`): CKA_EXTRACTABLE goes from
false to true and CKA_SENSITIVE from true to false. -/
theorem C14_dedup_violation : ∃ (tr : Trace) (h n : Nat) (e : Env) (tm : Template),
    reports exMechs exCrypto exOracle (exRun tr) h n CKA_EXTRACTABLE (bbool false) ∧
    reports exMechs exCrypto exOracle (exRun tr) h n CKA_SENSITIVE (bbool true) ∧
    (step exMechs exCrypto exOracle e (exRun tr) (.sess h (.createObject tm))).1 = .handle n ∧
    reports exMechs exCrypto exOracle (step exMechs exCrypto exOracle e (exRun tr) (.sess h (.createObject tm))).2 h n
      CKA_EXTRACTABLE (bbool true) ∧
    reports exMechs exCrypto exOracle (step exMechs exCrypto exOracle e (exRun tr) (.sess h (.createObject tm))).2 h n
      CKA_SENSITIVE (bbool false) := by
  refine ⟨exMerge, 1, 8, exEnv 9, exAesTemplate ++ [.ofBool CKA_TOKEN true, .ofBool CKA_EXTRACTABLE true,
    .ofBool CKA_SENSITIVE false, .mk' CKA_ID [5]], ?_, ?_, by decide +kernel, ?_, ?_⟩
  · exact ⟨exEnv 0, ⟨CKA_EXTRACTABLE, false, 1, [9]⟩, ⟨CKA_EXTRACTABLE, false, 1, [0]⟩, rfl, rfl, by decide +kernel, rfl⟩
  · exact ⟨exEnv 0, ⟨CKA_SENSITIVE, false, 1, [9]⟩, ⟨CKA_SENSITIVE, false, 1, [1]⟩, rfl, rfl, by decide +kernel, rfl⟩
  · exact ⟨exEnv 0, ⟨CKA_EXTRACTABLE, false, 1, [9]⟩, ⟨CKA_EXTRACTABLE, false, 1, [1]⟩, rfl, rfl, by decide +kernel, rfl⟩
  · exact ⟨exEnv 0, ⟨CKA_SENSITIVE, false, 1, [9]⟩, ⟨CKA_SENSITIVE, false, 1, [0]⟩, rfl, rfl, by decide +kernel, rfl⟩

end Kry

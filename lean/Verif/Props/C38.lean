import Verif.Proofs.Otp
import Verif.Proofs.OneAttr
import Verif.Props.C14Life

/-!
# C38: one-time passwords

`C38_sign`: C_SignInit and C_Sign with CKM_HOTP answer the RFC 4226 value of the stored counter, and afterwards the key holds the next
counter and everything else as before.  `C38_verify`: C_Verify accepts only a value of the next five counters and moves the counter past
the one it accepted.  `C38_no_reuse`: as long as nobody else lowers the counter, the counters used by successful calls, one after the
other, are strictly increasing.  The violations show that two operations begun before either ends use the same counter, and that
C_SetAttributeValue sets the counter back.
-/

namespace Kry
namespace Spec

/-- The OTP key with handle `n` on slot `i`, if storage works, has secret `v`, counter `c` and length `d`. -/
def otpKey (C : Crypto) (s : St) (i n : Nat) (v : Bytes) (c d : Nat) : Prop :=
  ∃ sl e o, AMap.get s.slots i = some sl ∧ sl.token.getObjectByHandle C e n = .ok o ∧ o.getBytes CKA_VALUE = .ok v ∧
    o.getBytes CKA_OTP_COUNTER = .ok (toBE 8 c) ∧ o.getUlong CKA_OTP_LENGTH = .ok d ∧ c < 2 ^ 64

end Spec

open Spec

theorem be64 {n : Nat} (h : n < 2 ^ 64) : fromBE (toBE 8 n) = n := by
  unfold fromBE toBE
  rw [List.reverse_reverse]
  exact fromLE_toLE 8 n h

theorem toBE_fromBE {b : Bytes} (h : b.length = 8) : toBE 8 (fromBE b) = b ∧ fromBE b < 2 ^ 64 := by
  unfold fromBE toBE
  have h' : b.reverse.length = 8 := by simpa using h
  have := toLE_fromLE b.reverse
  rw [h'] at this
  exact ⟨by rw [this, List.reverse_reverse], fromLE_lt8 _ h'⟩

theorem getUlong_lt {o : Obj} {t n : Nat} (h : o.getUlong t = .ok n) : n < 2 ^ 64 := by
  unfold Obj.getUlong at h
  split at h
  · cases h
  · unfold Attr.toUlong at h
    split at h
    · cases h
    · split at h
      · cases h
      · rename_i hx
        injection h with h
        rw [← h]
        exact fromLE_lt8 _ (Decidable.not_not.1 hx)

section
variable {M : Mechs} {C : Crypto} {O : Oracle} {H : OtpHash} {parse : Bytes → Res (Option Bytes)}

/-- The operation that C_SignInit and C_VerifyInit make. -/
def otpOp (n : Nat) (v : Bytes) (c d : Nat) : Op :=
  ⟨CKM_HOTP, false, false, some (n, [.mk' CKA_OTP_COUNTER (toBE 8 c)]), toBE 8 c ++ ulongBytes d ++ v⟩

theorem init_otp {e : Env} {k : OpKind} {n : Nat} {x x' : Session} {t : Token} (hv : HOk t) (ok : TblOk t.store.db.objs)
    (h : fnInitKey (withHotp H parse M) C e k CKM_HOTP [] n [] x t = (.ok (), x')) :
    ∃ o v c d, t.getObjectByHandle C (e.sub 0) n = .ok o ∧ o.getBytes CKA_VALUE = .ok v ∧ o.getBytes CKA_OTP_COUNTER = .ok (toBE 8 c) ∧
      o.getUlong CKA_OTP_LENGTH = .ok d ∧ c < 2 ^ 64 ∧ d < 2 ^ 64 ∧ AMap.get x'.ops k = some (otpOp n v c d) := by
  unfold fnInitKey at h
  split at h
  · simp only [Prod.mk.injEq] at h; cases h.1
  split at h
  · simp only [Prod.mk.injEq] at h; cases h.1
  split at h
  · simp only [Prod.mk.injEq] at h; cases h.1
  rename_i o ho
  split at h
  · simp only [Prod.mk.injEq] at h; cases h.1
  split at h
  · simp only [Prod.mk.injEq] at h; cases h.1
  split at h
  · simp only [Prod.mk.injEq] at h; cases h.1
  rename_i op hop
  simp only [Prod.mk.injEq, true_and] at h
  have hn : o.handle = n := by
    unfold Token.getObjectByHandle at ho
    cases hs : AMap.get t.sess n with
    | some o1 =>
      simp only [hs] at ho
      split at ho
      · cases ho
      injection ho with ho
      subst ho
      exact (hv.sess _ _ hs).1
    | none =>
      simp only [hs] at ho
      split at ho
      · cases ho
      rename_i ho1
      split at ho
      · cases ho
      injection ho with ho
      subst ho
      obtain ⟨_, _, _, _, _, h, _⟩ := fetch_row ok ho1
      exact h
  unfold newOp at hop
  simp only at hop
  split at hop
  · cases hop
  split at hop
  · cases hop
  rename_i op0 hop0
  simp only [withHotp, if_true] at hop0
  unfold hotpNew at hop0
  simp only [if_true] at hop0
  split at hop0
  · cases hop0
  rename_i c0 upd hp
  split at hop0
  · cases hop0
  rename_i hlen
  split at hop0
  · cases hop0
  rename_i d hd
  split at hop0
  · cases hop0
  rename_i v hvv
  split at hop0
  · cases hop0
  injection hop0 with hop0
  injection hop with hop
  have hc : upd = true ∧ o.getBytes CKA_OTP_COUNTER = .ok c0 := by
    unfold hotpCounter at hp
    split at hp
    · cases hp
    simp only at hp
    split at hp
    · cases hp
    split at hp
    · cases hp
    · rename_i hb; injection hp with hp; injection hp with h1 h2; subst h1 h2; exact ⟨rfl, hb⟩
  obtain ⟨rfl, hb⟩ := hc
  obtain ⟨hr, hlt⟩ := toBE_fromBE (Decidable.not_not.1 hlen)
  refine ⟨o, v, fromBE c0, d, ho, hvv, by rw [hr]; exact hb, hd, hlt, getUlong_lt hd, ?_⟩
  rw [← h, ← hop, ← hop0]
  unfold Session.setOp otpOp hotpUpd
  simp only [AMap.get_insert, if_true, hr, hn]

theorem hotpOf_op (n : Nat) (v : Bytes) (c d : Nat) (hd : d < 2 ^ 64) : hotpOf H (otpOp n v c d) = Hotp.make H (toBE 8 c) true d v := by
  have hl : (toBE 8 c).length = 8 := toBE_length 8 c
  have hu : (ulongBytes d).length = 8 := ulongBytes_length d
  unfold hotpOf otpOp
  simp only [Option.isSome_some]
  have e1 : (toBE 8 c ++ ulongBytes d ++ v).take 8 = toBE 8 c := by
    rw [List.append_assoc, List.take_append_of_le_length (by omega), List.take_of_length_le (by omega)]
  have e2 : ((toBE 8 c ++ ulongBytes d ++ v).drop 8).take 8 = ulongBytes d := by
    rw [List.append_assoc, List.drop_append_of_le_length (by omega), List.drop_of_length_le (by omega), List.nil_append,
      List.take_append_of_le_length (by omega), List.take_of_length_le (by omega)]
  have e3 : (toBE 8 c ++ ulongBytes d ++ v).drop 16 = v := by
    have : (toBE 8 c ++ ulongBytes d).length = 16 := by simp [hl, hu]
    rw [List.drop_append_of_le_length (by omega), List.drop_of_length_le (by omega), List.nil_append]
  rw [e1, e2, e3, fromLE_ulongBytes d hd]

theorem sign_ok (hH : OtpOk H) {v : Bytes} {c d : Nat} {o o' : Hotp} {b : Bytes} (hc : c < 2 ^ 64)
    (hm : Hotp.make H (toBE 8 c) true d v = .ok o) (h : o.signFinal = (.ok b, o')) :
    b = hotp (otpHash H v.length) v c d ∧ c + 1 < 2 ^ 64 ∧ o'.counter = toBE 8 (c + 1) := by
  obtain ⟨hr, h1, h2, h3⟩ := make_ready hH hm
  obtain ⟨g1, g2, g3, g4, _⟩ := generate_ok hH hr c
  unfold Hotp.signFinal at h
  rw [h1] at h
  generalize o.generate (toBE 8 c) = p at g1 g2 g3 g4 h
  obtain ⟨r, o1⟩ := p
  simp only at g1 g2 g3 g4 h
  subst g1
  split at h
  · rename_i hx; simp only [Prod.mk.injEq] at h; cases h.1
  rename_i b' hb'
  rw [g3, h2, if_pos rfl, g2, h1, be64 hc] at h
  unfold next64 at h
  split at hb'
  · injection hb' with hb'
    by_cases ho : c + 1 < 2 ^ 64
    · rw [if_pos ho] at h
      simp only [Prod.mk.injEq] at h
      injection h.1 with h4
      refine ⟨by rw [← h4, ← hb', h3], ho, by rw [← h.2]⟩
    · rw [if_neg ho] at h
      simp only [Prod.mk.injEq] at h
      cases h.1
  · cases hb'

theorem try_ok (hH : OtpOk H) {v sig : Bytes} {c : Nat} {n : Nat} {first : Bool} {o o' : Hotp}
    (hr : Ready H v (if first then o else { o with hmac := o.hmac.reinit })) (hu : o.upd = true)
    (h : Hotp.tryCounters sig n first c o = (.ok (), o')) :
    ∃ j < n, sig = hotp (otpHash H v.length) v (c + j) o.length ∧ c + j + 1 < 2 ^ 64 ∧ o'.counter = toBE 8 (c + j + 1) := by
  induction n generalizing c first o with
  | zero => unfold Hotp.tryCounters at h; simp only [Prod.mk.injEq] at h; cases h.1
  | succ n ih =>
    unfold Hotp.tryCounters at h
    simp only at h
    have ol : (if first then o else { o with hmac := o.hmac.reinit }).length = o.length ∧
        (if first then o else { o with hmac := o.hmac.reinit }).upd = o.upd := by split <;> exact ⟨rfl, rfl⟩
    generalize (if first then o else { o with hmac := o.hmac.reinit }) = o0 at hr h ol
    obtain ⟨g1, g2, g3, g4, g5, g6, g7, g8⟩ := generate_ok hH hr c
    generalize o0.generate (toBE 8 c) = p at g1 g2 g3 g4 g5 g6 g7 g8 h
    obtain ⟨r, o1⟩ := p
    simp only at g1 g2 g3 g4 g5 g6 g7 g8 h
    subst g1
    split at h
    · simp only [Prod.mk.injEq] at h; cases h.1
    rename_i otp hotp'
    split at hotp'
    · injection hotp' with hotp'
      split at h
      · rename_i hs
        rw [g3, ol.2, hu, if_pos rfl] at h
        unfold next64 at h
        by_cases hc : c + 1 < 2 ^ 64
        · rw [if_pos hc] at h
          simp only [Prod.mk.injEq] at h
          exact ⟨0, by omega, by rw [hs, ← hotp', ol.1]; rfl, hc, by rw [← h.2]⟩
        · rw [if_neg hc] at h
          simp only [Prod.mk.injEq] at h; cases h.1
      · unfold next64 at h
        by_cases hc : c + 1 < 2 ^ 64
        · rw [if_pos hc] at h
          simp only at h
          have hp := hr.pick
          rw [← g6, ← g5] at hp
          obtain ⟨j, hj, j1, j2, j3⟩ := ih (first := false) (reinit_ready hH hp g7 (g8.trans g5.symm)) (g3.trans (ol.2.trans hu)) h
          refine ⟨j + 1, by omega, ?_, by omega, ?_⟩
          · rw [j1, g4, ol.1, Nat.add_right_comm, Nat.add_assoc]
          · rw [j3]; congr 1; omega
        · rw [if_neg hc] at h
          simp only [Prod.mk.injEq] at h; cases h.1
    · cases hotp'

theorem verify_ok (hH : OtpOk H) {v sig : Bytes} {c d : Nat} {o o' : Hotp} (hc : c < 2 ^ 64)
    (hm : Hotp.make H (toBE 8 c) true d v = .ok o) (h : o.verifyFinal sig = (.ok (), o')) :
    ∃ j < 5, sig = hotp (otpHash H v.length) v (c + j) d ∧ c + j + 1 < 2 ^ 64 ∧ o'.counter = toBE 8 (c + j + 1) := by
  obtain ⟨hr, h1, h2, h3⟩ := make_ready hH hm
  unfold Hotp.verifyFinal at h
  split at h
  · simp only [Prod.mk.injEq] at h; cases h.1
  rw [h1, be64 hc] at h
  have := try_ok hH (by exact hr) h2 h
  rwa [h3] at this

/-- A successful use of the operation: the value and the request to store the next counter. -/
theorem run_otp (hH : OtpOk H) {e : Env} {k : OpKind} {a : Act} {n : Nat} {v : Bytes} {c d : Nat} {i : OpIn} {b : Bytes} {op' : Op}
    (hc : c < 2 ^ 64) (hd : d < 2 ^ 64) (h : runOp (withHotp H parse M) e k a (otpOp n v c d) i = (.ok b, op')) :
    ∃ j, (if k = .sign then j = 0 ∧ b = hotp (otpHash H v.length) v c d else j < 5 ∧ i.sig = hotp (otpHash H v.length) v (c + j) d) ∧
      c + j + 1 < 2 ^ 64 ∧ op'.upd = some (n, [.mk' CKA_OTP_COUNTER (toBE 8 (c + j + 1))]) := by
  unfold runOp at h
  simp only [withHotp] at h
  rw [if_pos (show (otpOp n v c d).mech = CKM_HOTP from rfl)] at h
  generalize hq : hotpRun H k a (otpOp n v c d) i = q at h
  obtain ⟨r, o1⟩ := q
  simp only [Prod.mk.injEq] at h
  obtain ⟨rfl, rfl⟩ := h
  simp only
  unfold hotpRun at hq
  split at hq
  · simp only [Prod.mk.injEq] at hq; cases hq.1
  split at hq
  · simp only [Prod.mk.injEq] at hq; cases hq.1
  split at hq
  · simp only [Prod.mk.injEq] at hq; cases hq.1
  simp only [hotpOf_op n v c d hd] at hq
  split at hq
  · simp only [Prod.mk.injEq] at hq; cases hq.1
  rename_i o ho
  split at hq
  · rename_i hk
    split at hq
    · simp only [Prod.mk.injEq] at hq; cases hq.1
    rename_i b' o' hs
    simp only [Prod.mk.injEq] at hq
    obtain ⟨hq1, hq2⟩ := hq
    injection hq1 with hq1
    subst hq1
    obtain ⟨s1, s2, s3⟩ := sign_ok hH hc ho hs
    refine ⟨0, by rw [if_pos hk]; exact ⟨rfl, s1⟩, s2, ?_⟩
    rw [← hq2]
    simp only [otpOp, Option.map_some, s3]
  · rename_i hk
    split at hq
    · simp only [Prod.mk.injEq] at hq; cases hq.1
    rename_i o' hs
    simp only [Prod.mk.injEq] at hq
    obtain ⟨j, hj, s1, s2, s3⟩ := verify_ok hH hc ho hs
    refine ⟨j, by rw [if_neg hk]; exact ⟨hj, s1⟩, s2, ?_⟩
    rw [← hq.2]
    simp only [otpOp, Option.map_some, s3]

/-- The counter is stored: what `afterUse` did. -/
theorem stored {e e0 e' : Env} (q : quiet e') {t t' : Token} (ok : TblOk t.store.db.objs) {n : Nat} {v c : Bytes} {d : Nat} {o : Obj} {op : Op}
    (hu : op.upd = some (n, [.mk' CKA_OTP_COUNTER c])) (h : afterUse C e op t = (.ok (), t')) (hg : t.getObjectByHandle C e0 n = .ok o)
    (hv : o.getBytes CKA_VALUE = .ok v) (hd : o.getUlong CKA_OTP_LENGTH = .ok d) :
    ∃ o', t'.getObjectByHandle C e' n = .ok o' ∧ o'.getBytes CKA_VALUE = .ok v ∧ o'.getBytes CKA_OTP_COUNTER = .ok c ∧
      o'.getUlong CKA_OTP_LENGTH = .ok d := by
  unfold afterUse at h
  rw [hu] at h
  simp only at h
  split at h
  · simp only [Prod.mk.injEq] at h; cases h.1
  split at h
  · rename_i hr
    generalize hs : t.setObjectAttrs C e n [.mk' CKA_OTP_COUNTER c] = p at h hr
    obtain ⟨r, t1⟩ := p
    simp only at hr
    subst hr
    simp only [Prod.mk.injEq, true_and] at h
    subst h
    obtain ⟨o', h1, h2, h3⟩ := setOne ok q ⟨plain_of (by decide) (by decide +kernel), by decide, by decide, by decide⟩
      ⟨by decide, by decide, by decide, by decide⟩ rfl hs hg
    have f1 := h3 CKA_VALUE (by unfold oneOr; decide)
    have f2 := h3 CKA_OTP_LENGTH (by unfold oneOr; decide)
    refine ⟨o', h1, ?_, ?_, ?_⟩
    · unfold Obj.getBytes at hv ⊢; rw [← f1]; exact hv
    · unfold Obj.getBytes; rw [h2]; rfl
    · unfold Obj.getUlong at hd ⊢; rw [← f2]; exact hd
  · simp only [Prod.mk.injEq] at h; cases h.1

/-- What the two calls do to a slot. -/
theorem use_otp (hH : OtpOk H) {s : St} (hi : Inv s) (hv : HInv s) (ht : TInv s) {h i n : Nat} (hm : AMap.get s.smap h = some i) {e1 e2 : Env}
    {k : OpKind} (hk : k = .sign ∨ k = .verify) {a : Act} {q : OpIn} {b : Bytes}
    (h1 : (step (withHotp H parse M) C O e1 s (.op h (.opInit k (some (CKM_HOTP, [])) n []))).1 = .ok) :
    ∃ v c d, otpKey C s i n v c d ∧
      let s1 := (step (withHotp H parse M) C O e1 s (.op h (.opInit k (some (CKM_HOTP, [])) n []))).2
      let z := step (withHotp H parse M) C O e2 s1 (.op h (.opRun k a q))
      (z.1 = (if k = .sign then .bytes b else .ok) → ∃ j,
        (if k = .sign then j = 0 ∧ b = hotp (otpHash H v.length) v c d else j < 5 ∧ q.sig = hotp (otpHash H v.length) v (c + j) d) ∧
        c + j + 1 < 2 ^ 64 ∧ otpKey C z.2 i n v (c + j + 1) d) ∧
      (k = .verify → (∀ j < 5, q.sig ≠ hotp (otpHash H v.length) v (c + j) d) → z.1 ≠ .ok ∧ otpKey C z.2 i n v c d) := by
  obtain ⟨sl, x, hg, hsl, hx⟩ := getSession_live hi hm
  have e0 : step (withHotp H parse M) C O e1 s (.op h (.opInit k (some (CKM_HOTP, [])) n [])) =
      (Out.of (fnInitKey (withHotp H parse M) C e1 k CKM_HOTP [] n [] x sl.token).1,
        s.setSlot i ⟨sl.token, AMap.modify sl.sessions h fun _ => (fnInitKey (withHotp H parse M) C e1 k CKM_HOTP [] n [] x sl.token).2⟩) := by
    unfold step opStep
    have hkd : k ≠ .digest := by rcases hk with rfl | rfl <;> decide
    simp only [hg, hkd, if_false]
  have hi1 := inv_step (withHotp H parse M) O e1 s (.op h (.opInit k (some (CKM_HOTP, [])) n [])) hi (C := C)
  rw [e0] at h1 hi1 ⊢
  simp only at h1 hi1 ⊢
  generalize hf : fnInitKey (withHotp H parse M) C e1 k CKM_HOTP [] n [] x sl.token = p at h1 hi1 ⊢
  obtain ⟨r, x'⟩ := p
  simp only at h1 hi1 ⊢
  have hr : r = .ok () := by
    cases r with
    | ok u => rfl
    | error r => simp [Out.of] at h1
  subst hr
  have ok := ht.slots i sl hsl
  obtain ⟨o, v, c, d, g1, g2, g3, g4, hc, hd, hop⟩ := init_otp (hv i sl hsl).ok ok hf
  refine ⟨v, c, d, ⟨sl, _, o, hsl, g1, g2, g3, g4, hc⟩, ?_⟩
  have hs1 : AMap.get (s.setSlot i ⟨sl.token, AMap.modify sl.sessions h fun _ => x'⟩).slots i =
      some ⟨sl.token, AMap.modify sl.sessions h fun _ => x'⟩ := by rw [get_setSlot hsl, if_pos rfl]
  have hg1 : (s.setSlot i ⟨sl.token, AMap.modify sl.sessions h fun _ => x'⟩).getSession h =
      .ok (i, ⟨sl.token, AMap.modify sl.sessions h fun _ => x'⟩, x') := by
    obtain ⟨sl1, x1, y1, y2, y3⟩ := getSession_live hi1 (show AMap.get (s.setSlot i ⟨sl.token, AMap.modify sl.sessions h fun _ => x'⟩).smap h = some i from hm)
    rw [hs1] at y2
    injection y2 with y2
    rw [← y2] at y3
    simp only [AMap.get_modify, hx, if_true, Option.map_some] at y3
    injection y3 with y3
    rw [y1, ← y2, y3]
  have e2' : step (withHotp H parse M) C O e2 (s.setSlot i ⟨sl.token, AMap.modify sl.sessions h fun _ => x'⟩) (.op h (.opRun k a q)) =
      ((fnOpRun (withHotp H parse M) C e2 k a q x' sl.token).1,
        (s.setSlot i ⟨sl.token, AMap.modify sl.sessions h fun _ => x'⟩).setSlot i
          ⟨(fnOpRun (withHotp H parse M) C e2 k a q x' sl.token).2.2,
            AMap.modify (AMap.modify sl.sessions h fun _ => x') h fun _ => (fnOpRun (withHotp H parse M) C e2 k a q x' sl.token).2.1⟩) := by
    unfold step opStep
    simp only [hg1]
  rw [e2']
  simp only
  generalize hfr : fnOpRun (withHotp H parse M) C e2 k a q x' sl.token = p
  obtain ⟨out, x2, t2⟩ := p
  simp only
  have hs2 : AMap.get ((s.setSlot i ⟨sl.token, AMap.modify sl.sessions h fun _ => x'⟩).setSlot i
      ⟨t2, AMap.modify (AMap.modify sl.sessions h fun _ => x') h fun _ => x2⟩).slots i =
      some ⟨t2, AMap.modify (AMap.modify sl.sessions h fun _ => x') h fun _ => x2⟩ := by rw [get_setSlot hs1, if_pos rfl]
  have hget : x'.getOp k = .ok (otpOp n v c d) ∨ ∃ r, x'.getOp k = .error r := by
    cases hq : x'.getOp k with
    | error r => exact .inr ⟨r, rfl⟩
    | ok op =>
      left
      unfold Session.getOp at hq
      rw [hop] at hq
      simp only at hq
      repeat' split at hq
      all_goals first | (cases hq; done) | (rw [← hq])
  rcases hk with rfl | rfl
  · refine ⟨fun hz => ?_, nofun⟩
    rw [if_pos rfl] at hz
    subst hz
    unfold fnOpRun at hfr
    simp only at hfr
    have hsign : fnSign (withHotp H parse M) C e2 a q x' sl.token = (.bytes b, x2, t2) := by
      split at hfr
      · exact hfr
      · exact hfr
      · simp only [Prod.mk.injEq] at hfr
        have := hfr.1
        unfold Out.of at this
        split at this <;> cases this
      · simp only [Prod.mk.injEq] at hfr; cases hfr.1
    unfold fnSign at hsign
    rcases hget with hget | ⟨r, hget⟩
    · rw [hget] at hsign
      simp only at hsign
      split at hsign
      · simp only [Prod.mk.injEq] at hsign; cases hsign.1
      split at hsign
      · simp only [Prod.mk.injEq] at hsign; cases hsign.1
      split at hsign
      · simp only [Prod.mk.injEq] at hsign; cases hsign.1
      generalize hru : runOp (withHotp H parse M) (e2.sub 0) .sign a (otpOp n v c d) q = p at hsign
      obtain ⟨r, op'⟩ := p
      simp only at hsign
      cases r with
      | error r => simp only [Prod.mk.injEq] at hsign; cases hsign.1
      | ok b' =>
        simp only at hsign
        generalize hau : afterUse C (e2.sub 1) op' sl.token = p at hsign
        obtain ⟨r, t'⟩ := p
        cases r with
        | error r => simp only [Prod.mk.injEq] at hsign; cases hsign.1
        | ok u =>
          simp only [Prod.mk.injEq] at hsign
          obtain ⟨hb, _, rfl⟩ := hsign
          injection hb with hb
          subst hb
          obtain ⟨j, j1, j2, j3⟩ := run_otp hH hc hd hru
          obtain ⟨o', k1, k2, k3, k4⟩ := stored (e' := quietEnv) (fun _ => rfl) ok j3 hau g1 g2 g4
          exact ⟨j, j1, j2, _, quietEnv, o', hs2, k1, k2, k3, k4, j2⟩
    · rw [hget] at hsign
      simp only [Prod.mk.injEq] at hsign
      cases hsign.1
  · have key : (out ≠ .ok ∧ t2 = sl.token) ∨ ∃ b' op' r, runOp (withHotp H parse M) (e2.sub 0) .verify a (otpOp n v c d) q = (.ok b', op') ∧
        afterUse C (e2.sub 1) op' sl.token = (r, t2) ∧ out = Out.of r := by
      unfold fnOpRun at hfr
      simp only at hfr
      have hver : (fnVerify (withHotp H parse M) C e2 .verify a q x' sl.token = (out, x2, t2)) ∨ (out ≠ .ok ∧ t2 = sl.token) := by
        split at hfr
        · exact .inl hfr
        · exact .inl hfr
        · right
          rcases hget with hget | ⟨r, hget⟩
          · unfold fnFeed at hfr
            rw [hget] at hfr
            simp only [runOp, withHotp] at hfr
            rw [if_pos (show (otpOp n v c d).mech = CKM_HOTP from rfl)] at hfr
            unfold hotpRun at hfr
            simp only [if_true, Prod.mk.injEq, Out.of] at hfr
            exact ⟨by rw [← hfr.1]; nofun, hfr.2.2.symm⟩
          · unfold fnFeed at hfr
            rw [hget] at hfr
            simp only [Prod.mk.injEq, Out.of] at hfr
            exact ⟨by rw [← hfr.1]; nofun, hfr.2.2.symm⟩
        · right
          simp only [Prod.mk.injEq] at hfr
          exact ⟨by rw [← hfr.1]; nofun, hfr.2.2.symm⟩
      rcases hver with hver | hver
      · unfold fnVerify at hver
        rcases hget with hget | ⟨r, hget⟩
        · rw [hget] at hver
          simp only [if_true] at hver
          split at hver
          · simp only [Prod.mk.injEq] at hver
            exact .inl ⟨by rw [← hver.1]; nofun, hver.2.2.symm⟩
          generalize hru : runOp (withHotp H parse M) (e2.sub 0) .verify a (otpOp n v c d) q = p at hver
          obtain ⟨r, op'⟩ := p
          simp only at hver
          cases r with
          | error r =>
            simp only [Prod.mk.injEq] at hver
            exact .inl ⟨by rw [← hver.1]; nofun, hver.2.2.symm⟩
          | ok b' =>
            simp only at hver
            generalize hau : afterUse C (e2.sub 1) op' sl.token = p at hver
            obtain ⟨r, t'⟩ := p
            simp only [Prod.mk.injEq] at hver
            exact .inr ⟨b', op', r, rfl, by rw [hau, hver.2.2], hver.1.symm⟩
        · rw [hget] at hver
          simp only [Prod.mk.injEq] at hver
          exact .inl ⟨by rw [← hver.1]; nofun, hver.2.2.symm⟩
      · exact .inl hver
    refine ⟨fun hz => ?_, fun _ hn => ?_⟩
    · rw [if_neg (by decide)] at hz
      rcases key with key | ⟨b', op', r, k1, k2, k3⟩
      · exact absurd hz key.1
      · rw [hz] at k3
        cases r with
        | error r => simp [Out.of] at k3
        | ok u =>
          obtain ⟨j, j1, j2, j3⟩ := run_otp hH hc hd k1
          rw [if_neg (by decide)] at j1
          obtain ⟨o', k1, k2, k3, k4⟩ := stored (e' := quietEnv) (fun _ => rfl) ok j3 k2 g1 g2 g4
          exact ⟨j, by rw [if_neg (by decide)]; exact j1, j2, _, quietEnv, o', hs2, k1, k2, k3, k4, j2⟩
    · rcases key with key | ⟨b', op', r, k1, k2, k3⟩
      · refine ⟨key.1, _, e1.sub 0, o, hs2, ?_, g2, g3, g4, hc⟩
        rw [key.2]; exact g1
      · obtain ⟨j, j1, _⟩ := run_otp hH hc hd k1
        rw [if_neg (by decide)] at j1
        exact absurd j1.2 (hn j j1.1)

/-- An OTP key has one secret, one counter and one length. -/
theorem otp_unique {s : St} (ht : TInv s) {i n : Nat} {v v' : Bytes} {c c' d d' : Nat} (h : otpKey C s i n v c d) (h' : otpKey C s i n v' c' d') :
    v = v' ∧ c = c' ∧ d = d' := by
  obtain ⟨sl, e, o, h1, h2, h3, h4, h5, h6⟩ := h
  obtain ⟨sl', e', o', k1, k2, k3, k4, k5, k6⟩ := h'
  rw [h1] at k1
  injection k1 with k1
  subst k1
  have same := getObject_det (ht.slots i sl h1) h2 k2
  have fs := fun t => same t id
  unfold Obj.getBytes at h3 h4 k3 k4
  unfold Obj.getUlong at h5 k5
  rw [fs] at h3 h4 h5
  rw [h3] at k3; rw [h4] at k4; rw [h5] at k5
  injection k3 with k3; injection k4 with k4; injection k5 with k5
  refine ⟨k3, ?_, k5⟩
  rw [← be64 h6, k4, be64 k6]

/-- One use of the key with handle `n` through session `h` of slot `i`: the two calls one after the other.  C_Sign answers `b`, C_Verify
accepts `b`. -/
def otpUse (M : Mechs) (C : Crypto) (O : Oracle) (s : St) (i n : Nat) (k : OpKind) (b : Bytes) (s' : St) : Prop :=
  ∃ e1 e2 h a q, onSlot M C O s h i ∧ (step M C O e1 s (.op h (.opInit k (some (CKM_HOTP, [])) n []))).1 = .ok ∧
    (if k = .sign then (step M C O e2 (step M C O e1 s (.op h (.opInit k (some (CKM_HOTP, [])) n []))).2 (.op h (.opRun k a q))).1 = .bytes b
      else k = .verify ∧ q.sig = b ∧
        (step M C O e2 (step M C O e1 s (.op h (.opInit k (some (CKM_HOTP, [])) n []))).2 (.op h (.opRun k a q))).1 = .ok) ∧
    s' = (step M C O e2 (step M C O e1 s (.op h (.opInit k (some (CKM_HOTP, [])) n []))).2 (.op h (.opRun k a q))).2

/-- **C38, signing.**  C_Sign answers the RFC 4226 value of the key's counter; afterwards the key has the next counter, and the secret and the
length it had.  (When the counter is the last one, no value is answered.) -/
theorem C38_sign (hH : OtpOk H) {d0 : List (Nat × Db)} (hd : ∀ p ∈ d0, TblOk p.2.objs) (tr : Trace) {i n : Nat} {b : Bytes} {s' : St}
    (h : otpUse (withHotp H parse M) C O (run (withHotp H parse M) C O (St.init d0) tr) i n .sign b s') :
    ∃ v c d, otpKey C (run (withHotp H parse M) C O (St.init d0) tr) i n v c d ∧ b = hotp (otpHash H v.length) v c d ∧ c + 1 < 2 ^ 64 ∧
      otpKey C s' i n v (c + 1) d := by
  obtain ⟨e1, e2, h, a, q, h1, h2, h3, h4⟩ := h
  have hi := inv_reach (withHotp H parse M) O d0 tr (C := C)
  rw [if_pos rfl] at h3
  obtain ⟨v, c, d, k1, k2, _⟩ := use_otp hH hi (hinv_reach _ O d0 tr) (tinv_reach _ O hd tr) ((onSlot_iff hi).1 h1) (.inl rfl) (e2 := e2)
    (a := a) (q := q) (b := b) h2
  obtain ⟨j, j1, j2, j3⟩ := k2 (by rw [if_pos rfl]; exact h3)
  rw [if_pos rfl] at j1
  obtain ⟨rfl, hb⟩ := j1
  exact ⟨v, c, d, k1, hb, j2, by rw [h4]; exact j3⟩

/-- **C38, checking.**  C_Verify accepts only the value of one of the five counters from the key's counter on; afterwards the key's counter is
past the accepted one. -/
theorem C38_verify (hH : OtpOk H) {d0 : List (Nat × Db)} (hd : ∀ p ∈ d0, TblOk p.2.objs) (tr : Trace) {i n : Nat} {b : Bytes} {s' : St}
    (h : otpUse (withHotp H parse M) C O (run (withHotp H parse M) C O (St.init d0) tr) i n .verify b s') :
    ∃ v c d j, otpKey C (run (withHotp H parse M) C O (St.init d0) tr) i n v c d ∧ j < 5 ∧ b = hotp (otpHash H v.length) v (c + j) d ∧
      c + j + 1 < 2 ^ 64 ∧ otpKey C s' i n v (c + j + 1) d := by
  obtain ⟨e1, e2, h, a, q, h1, h2, h3, h4⟩ := h
  have hi := inv_reach (withHotp H parse M) O d0 tr (C := C)
  rw [if_neg (by decide)] at h3
  obtain ⟨v, c, d, k1, k2, _⟩ := use_otp hH hi (hinv_reach _ O d0 tr) (tinv_reach _ O hd tr) ((onSlot_iff hi).1 h1) (.inr rfl) (e2 := e2)
    (a := a) (q := q) (b := b) h2
  obtain ⟨j, j1, j2, j3⟩ := k2 (by rw [if_neg (by decide)]; exact h3.2.2)
  rw [if_neg (by decide)] at j1
  exact ⟨v, c, d, j, k1, j1.1, h3.2.1 ▸ j1.2, j2, by rw [h4]; exact j3⟩

/-- **C38, refusing.**  Any other value is refused and the key keeps its counter. -/
theorem C38_refuse (hH : OtpOk H) {d0 : List (Nat × Db)} (hd : ∀ p ∈ d0, TblOk p.2.objs) (tr : Trace) {i n h : Nat} {e1 e2 : Env} {a : Act}
    {q : OpIn} (hs : onSlot (withHotp H parse M) C O (run (withHotp H parse M) C O (St.init d0) tr) h i)
    (h1 : (step (withHotp H parse M) C O e1 (run (withHotp H parse M) C O (St.init d0) tr)
      (.op h (.opInit .verify (some (CKM_HOTP, [])) n []))).1 = .ok) {v : Bytes} {c d : Nat}
    (hk : otpKey C (run (withHotp H parse M) C O (St.init d0) tr) i n v c d)
    (hne : ∀ j < 5, q.sig ≠ hotp (otpHash H v.length) v (c + j) d) :
    let z := step (withHotp H parse M) C O e2 (step (withHotp H parse M) C O e1 (run (withHotp H parse M) C O (St.init d0) tr)
      (.op h (.opInit .verify (some (CKM_HOTP, [])) n []))).2 (.op h (.opRun .verify a q))
    z.1 ≠ .ok ∧ otpKey C z.2 i n v c d := by
  have hi := inv_reach (withHotp H parse M) O d0 tr (C := C)
  have ht := tinv_reach (withHotp H parse M) O hd tr (C := C)
  obtain ⟨v', c', d', k1, _, k2⟩ := use_otp hH hi (hinv_reach _ O d0 tr) ht ((onSlot_iff hi).1 hs) (.inr rfl) (e2 := e2)
    (a := a) (q := q) (b := []) h1
  obtain ⟨rfl, rfl, rfl⟩ := otp_unique ht hk k1
  exact k2 rfl hne

/-- Uses of one key, with anything in between that does not leave its counter below `lo`; `l` lists the counters used, as the key tells
afterwards. -/
inductive OtpUses (M : Mechs) (C : Crypto) (O : Oracle) (i n : Nat) : Nat → St → List (OpKind × Bytes × Nat) → Prop where
  | nil (lo s) : OtpUses M C O i n lo s []
  | use {lo s tr k b s' v c d l} : (∀ v c d, otpKey C (run M C O s tr) i n v c d → lo ≤ c) → otpUse M C O (run M C O s tr) i n k b s' →
      otpKey C s' i n v (c + 1) d → OtpUses M C O i n (c + 1) s' l → OtpUses M C O i n lo s ((k, b, c) :: l)

theorem use_reach {M : Mechs} {s s' : St} {i n : Nat} {k : OpKind} {b : Bytes} (h : otpUse M C O s i n k b s') : ∃ tr, s' = run M C O s tr := by
  obtain ⟨e1, e2, h, a, q, _, _, _, h4⟩ := h
  exact ⟨[(e1, .op h (.opInit k (some (CKM_HOTP, [])) n [])), (e2, .op h (.opRun k a q))], h4⟩

/-- **C38, no counter twice.**  However many successful uses there are, by C_Sign and C_Verify through any sessions, each complete before the
next begins, and with any other calls in between that do not put the counter back: the counters used are strictly increasing.  No two
answers come from one counter. -/
theorem C38_no_reuse (hH : OtpOk H) {d0 : List (Nat × Db)} (hd : ∀ p ∈ d0, TblOk p.2.objs) (tr : Trace) {i n lo : Nat}
    {l : List (OpKind × Bytes × Nat)} (h : OtpUses (withHotp H parse M) C O i n lo (run (withHotp H parse M) C O (St.init d0) tr) l) :
    l.Pairwise (fun a b => a.2.2 < b.2.2) ∧ ∀ a ∈ l, lo ≤ a.2.2 := by
  generalize hs : run (withHotp H parse M) C O (St.init d0) tr = s at h
  induction h generalizing tr with
  | nil => exact ⟨.nil, nofun⟩
  | @use lo s tr' k b s' v c d l h1 h2 h3 h4 ih =>
    obtain ⟨tr2, ht2⟩ := use_reach h2
    have hr : run (withHotp H parse M) C O s tr' = run (withHotp H parse M) C O (St.init d0) (tr ++ tr') := by rw [run_append, hs]
    have hr2 : s' = run (withHotp H parse M) C O (St.init d0) (tr ++ tr' ++ tr2) := by rw [run_append, ← hr, ht2]
    obtain ⟨p1, p2⟩ := ih _ hr2.symm
    have hlo : lo ≤ c := by
      have ht' := tinv_reach (withHotp H parse M) O hd (tr ++ tr' ++ tr2) (C := C)
      rw [← hr2] at ht'
      by_cases hk : k = .sign
      · subst hk
        rw [hr] at h2 h1
        obtain ⟨v', c', d', k1, _, _, k2⟩ := C38_sign hH hd _ h2
        obtain ⟨_, hc, _⟩ := otp_unique ht' h3 k2
        have := h1 _ _ _ k1
        omega
      · have hk : k = .verify := by
          obtain ⟨e1, e2, h, a, q, _, _, k3, _⟩ := h2
          rw [if_neg hk] at k3
          exact k3.1
        subst hk
        rw [hr] at h2 h1
        obtain ⟨v', c', d', j, k1, _, _, _, k2⟩ := C38_verify hH hd _ h2
        obtain ⟨_, hc, _⟩ := otp_unique ht' h3 k2
        have := h1 _ _ _ k1
        omega
    refine ⟨List.pairwise_cons.2 ⟨fun a ha => ?_, p1⟩, ?_⟩
    · have := p2 a ha; simp only; omega
    · rintro a (_ | ⟨_, ha⟩)
      · exact hlo
      · have := p2 a ha; omega

/-- The key leaves the choice of the counter to itself: its CKA_OTP_COUNTER_REQUIREMENT is neither optional nor mandatory. -/
def Spec.ownCounter (C : Crypto) (s : St) (i n : Nat) : Prop :=
  ∃ sl e o r, AMap.get s.slots i = some sl ∧ sl.token.getObjectByHandle C e n = .ok o ∧
    o.getUlong CKA_OTP_COUNTER_REQUIREMENT = .ok r ∧ r ≠ CK_OTP_PARAM_OPTIONAL ∧ r ≠ CK_OTP_PARAM_MANDATORY

theorem ownCounter_of {C : Crypto} {s : St} {i n : Nat} (e : Env)
    (h : (match AMap.get s.slots i with
      | none => false
      | some sl => match sl.token.getObjectByHandle C e n with
        | .error _ => false
        | .ok o => match o.getUlong CKA_OTP_COUNTER_REQUIREMENT with
          | .error _ => false
          | .ok r => decide (r ≠ CK_OTP_PARAM_OPTIONAL ∧ r ≠ CK_OTP_PARAM_MANDATORY)) = true) : ownCounter C s i n := by
  split at h
  · cases h
  rename_i sl h1
  split at h
  · cases h
  rename_i o h2
  split at h
  · cases h
  rename_i r h3
  exact ⟨sl, e, o, r, h1, h2, h3, of_decide_eq_true h⟩

theorem hotpCounter_own {key : Obj} (h : ∀ r, key.getUlong CKA_OTP_COUNTER_REQUIREMENT = .ok r →
    r ≠ CK_OTP_PARAM_OPTIONAL ∧ r ≠ CK_OTP_PARAM_MANDATORY) (g g' : Option Bytes) : hotpCounter key g = hotpCounter key g' := by
  unfold hotpCounter
  cases hr : key.getUlong CKA_OTP_COUNTER_REQUIREMENT with
  | error r => rfl
  | ok r =>
    obtain ⟨h1, h2⟩ := h r hr
    have h3 : ¬ (r = CK_OTP_PARAM_OPTIONAL ∨ r = CK_OTP_PARAM_MANDATORY) := by simp [h1, h2]
    cases g <;> cases g' <;> simp only [if_neg h2, if_neg h3]

/-- **C38, the application's counter.**  For a key that leaves the choice to itself, a counter that the application passes in the mechanism
parameter has no effect: C_SignInit and C_VerifyInit, when they succeed, do what they do without a parameter. -/
theorem C38_ignored {d0 : List (Nat × Db)} (hd : ∀ p ∈ d0, TblOk p.2.objs) (tr : Trace) {i n h : Nat} {k : OpKind} (hk : k = .sign ∨ k = .verify) {p : Bytes} {e : Env}
    (hs : onSlot (withHotp H parse M) C O (run (withHotp H parse M) C O (St.init d0) tr) h i)
    (hown : ownCounter C (run (withHotp H parse M) C O (St.init d0) tr) i n)
    (hok : (step (withHotp H parse M) C O e (run (withHotp H parse M) C O (St.init d0) tr)
      (.op h (.opInit k (some (CKM_HOTP, p)) n []))).1 = .ok) :
    step (withHotp H parse M) C O e (run (withHotp H parse M) C O (St.init d0) tr) (.op h (.opInit k (some (CKM_HOTP, p)) n [])) =
      step (withHotp H parse M) C O e (run (withHotp H parse M) C O (St.init d0) tr) (.op h (.opInit k (some (CKM_HOTP, [])) n [])) := by
  have hi := inv_reach (withHotp H parse M) O d0 tr (C := C)
  have ht := tinv_reach (withHotp H parse M) O hd tr (C := C)
  generalize run (withHotp H parse M) C O (St.init d0) tr = s at *
  have hi1 := (onSlot_iff hi).1 hs
  have hnd : k ≠ .digest := by rcases hk with rfl | rfl <;> decide
  have main : ∀ t x x', (∀ o, t.getObjectByHandle C (e.sub 0) n = .ok o → ∀ r, o.getUlong CKA_OTP_COUNTER_REQUIREMENT = .ok r →
        r ≠ CK_OTP_PARAM_OPTIONAL ∧ r ≠ CK_OTP_PARAM_MANDATORY) →
      fnInitKey (withHotp H parse M) C e k CKM_HOTP p n [] x t = (.ok (), x') →
      fnInitKey (withHotp H parse M) C e k CKM_HOTP [] n [] x t = (.ok (), x') := by
    intro t x x' ho h
    have hnew : ∀ o op, t.getObjectByHandle C (e.sub 0) n = .ok o → newOp (withHotp H parse M) (e.sub 1) k CKM_HOTP p (some o) [] = .ok op →
        newOp (withHotp H parse M) (e.sub 1) k CKM_HOTP [] (some o) [] = .ok op := by
      intro o op hg hn
      unfold newOp at hn ⊢
      simp only [withHotp, if_true] at hn ⊢
      split at hn
      · cases hn
      have hq : ∀ op, hotpNew H parse p o = .ok op → hotpNew H parse [] o = .ok op := by
        intro op hq
        unfold hotpNew at hq ⊢
        simp only at hq ⊢
        split at hq
        · cases hq
        rename_i g _
        rw [hotpCounter_own (ho o hg) g none] at hq
        rw [if_pos True.intro]
        exact hq
      split at hn
      · cases hn
      rename_i op0 h0
      rw [hq op0 h0]
      exact hn
    unfold fnInitKey at h ⊢
    split at h
    · simp only [Prod.mk.injEq] at h; cases h.1
    split at h
    · simp only [Prod.mk.injEq] at h; cases h.1
    rename_i hc2
    rw [if_neg hc2]
    split at h
    · simp only [Prod.mk.injEq] at h; cases h.1
    rename_i o hg
    try simp only [hg]
    split at h
    · simp only [Prod.mk.injEq] at h; cases h.1
    split at h
    · simp only [Prod.mk.injEq] at h; cases h.1
    split at h
    · simp only [Prod.mk.injEq] at h; cases h.1
    rename_i op hop
    simp only [hnew o op hg hop]
    exact h
  unfold step at hok ⊢
  simp only at hok ⊢
  cases hgs : s.getSession h with
  | error r => rfl
  | ok v =>
  obtain ⟨i', sl, x⟩ := v
  obtain ⟨_, h1, h2, h3⟩ := getSession_ok hgs
  rw [hi1] at h1
  cases h1
  simp only [hgs] at hok ⊢
  unfold opStep at hok ⊢
  simp only [if_neg hnd] at hok ⊢
  have hm := main sl.token x
  cases hf : fnInitKey (withHotp H parse M) C e k CKM_HOTP p n [] x sl.token with
  | mk r x' =>
    rw [hf] at hok
    cases r with
    | error r => simp only [Out.of] at hok; cases hok
    | ok u =>
      cases u
      rw [hm x' (fun o hg r hr => by
        obtain ⟨sl', e', o', r', k1, k2, k3, k4⟩ := hown
        rw [h2] at k1
        injection k1 with k1
        subst k1
        have same := getObject_det (ht.slots i sl h2) hg k2 CKA_OTP_COUNTER_REQUIREMENT id
        unfold Obj.getUlong at hr k3
        rw [same, k3] at hr
        injection hr with hr
        exact hr ▸ k4) hf]

end
/-! Toy hashes of the right sizes, and the key of `exHotp` (Props/C19) with handle 7 on slot 7, counter 0. -/

def exToy (n b : Nat) : HashAlg :=
  ⟨fun m => (List.range n).map fun i => UInt8.ofNat (m.foldl (fun s b => s * 31 + b.toNat) 7 / (i + 1)), n, b⟩

def exOtpHash : OtpHash := ⟨exToy 20 64, exToy 32 64, exToy 64 128⟩

theorem exToy_ok {n b : Nat} (h : n ≤ b) (hb : b ≤ MAX_BSZ) : HashOk (exToy n b) := ⟨fun _ => by simp [exToy], h, hb⟩

theorem exOtp_ok : OtpOk exOtpHash :=
  ⟨⟨exToy_ok (by decide) (by decide), rfl⟩, ⟨exToy_ok (by decide) (by decide), rfl⟩, ⟨exToy_ok (by decide) (by decide), rfl⟩⟩

abbrev exOtpMechs : Mechs := withHotp exOtpHash (fun _ => .error .mechanismParamInvalid) exMechs

def exOtpRun (tr : Trace) : St := run exOtpMechs exCrypto exOracle (St.init []) (exHotp ++ tr)
def exOtpOuts (tr : Trace) : List Out := (outs exOtpMechs exCrypto exOracle (St.init []) (exHotp ++ tr)).drop 9

def exOtpSign (h : Nat) : Trace :=
  [(exEnv 9, .op h (.opInit .sign (some (CKM_HOTP, [])) 7 [])), (exEnv 10, .op h (.opRun .sign .oneShot ⟨[], [], [], [], some 46⟩))]

def exOtpVerify (h : Nat) (b : Bytes) : Trace :=
  [(exEnv 9, .op h (.opInit .verify (some (CKM_HOTP, [])) 7 [])), (exEnv 10, .op h (.opRun .verify .oneShot ⟨[], b, [], [], none⟩))]

/-- The value of counter `c` of the example key. -/
def exOtp (c : Nat) : Bytes := hotp (exToy 20 64) (List.replicate 20 7) c 6

set_option maxRecDepth 20000 in
/-- Signing on two sessions, a value of the past refused, a value of the near future accepted once, signing after it. -/
example : exOtpOuts (exOtpSign 1 ++ exOtpSign 2 ++ exOtpVerify 2 (exOtp 1) ++ exOtpVerify 1 (exOtp 5) ++ exOtpVerify 1 (exOtp 5) ++ exOtpSign 2) =
    [.ok, .bytes (exOtp 0), .ok, .bytes (exOtp 1), .ok, .err .signatureInvalid, .ok, .ok, .ok, .err .signatureInvalid, .ok,
      .bytes (exOtp 6)] ∧ exOtp 0 ≠ exOtp 1 := by decide +kernel

set_option maxRecDepth 20000 in
/-- For `C38_ignored`: the example key, the application passing counter 1. -/
example : ownCounter exCrypto (run (withHotp exOtpHash (fun p => .ok (some p)) exMechs) exCrypto exOracle (St.init []) exHotp) 7 7 ∧
    (outs (withHotp exOtpHash (fun p => .ok (some p)) exMechs) exCrypto exOracle (St.init [])
      (exHotp ++ [(exEnv 9, .op 1 (.opInit .sign (some (CKM_HOTP, [0, 0, 0, 0, 0, 0, 0, 1])) 7 [])),
        (exEnv 10, .op 1 (.opRun .sign .oneShot ⟨[], [], [], [], some 46⟩))])).drop 9 = [.ok, .bytes (exOtp 0)] := by
  exact ⟨ownCounter_of (exEnv 9) (by decide +kernel), by decide +kernel⟩

set_option maxRecDepth 20000 in
theorem exUse_sign : otpUse exOtpMechs exCrypto exOracle (exOtpRun []) 7 7 .sign (exOtp 0) (exOtpRun (exOtpSign 1)) :=
  ⟨exEnv 9, exEnv 10, 1, .oneShot, ⟨[], [], [], [], some 46⟩, ⟨quietEnv, .rwUser, 6, by decide +kernel⟩, by decide +kernel,
    by rw [if_pos rfl]; decide +kernel, by
      show exOtpRun (exOtpSign 1) = run _ _ _ (exOtpRun []) (exOtpSign 1)
      unfold exOtpRun
      rw [← run_append, List.append_nil]⟩

set_option maxRecDepth 20000 in
theorem exUse_verify : otpUse exOtpMechs exCrypto exOracle (exOtpRun (exOtpSign 1)) 7 7 .verify (exOtp 5)
    (exOtpRun (exOtpSign 1 ++ exOtpVerify 2 (exOtp 5))) :=
  ⟨exEnv 9, exEnv 10, 2, .oneShot, ⟨[], exOtp 5, [], [], none⟩, ⟨quietEnv, .roUser, 4, by decide +kernel⟩, by decide +kernel,
    by rw [if_neg (by decide)]; decide +kernel, by
      show exOtpRun (exOtpSign 1 ++ exOtpVerify 2 (exOtp 5)) = run _ _ _ (exOtpRun (exOtpSign 1)) (exOtpVerify 2 (exOtp 5))
      unfold exOtpRun
      rw [← run_append, List.append_assoc]⟩

theorem exFiles : ∀ p ∈ ([] : List (Nat × Db)), TblOk p.2.objs := nofun

/-- `C38_sign` applies to the run. -/
example : ∃ v c d, otpKey exCrypto (exOtpRun []) 7 7 v c d ∧ exOtp 0 = hotp (otpHash exOtpHash v.length) v c d ∧ c + 1 < 2 ^ 64 ∧
    otpKey exCrypto (exOtpRun (exOtpSign 1)) 7 7 v (c + 1) d := by
  have h := C38_sign exOtp_ok exFiles (exHotp ++ []) exUse_sign
  exact h

theorem otp_two {M : Mechs} {C : Crypto} {O : Oracle} {s s' s2 : St} {i n c c' d d' : Nat} {k k' : OpKind} {b b' v v' : Bytes}
    (u : otpUse M C O s i n k b s') (h : otpKey C s' i n v (c + 1) d) (hlo : ∀ v c1 d, otpKey C s' i n v c1 d → c + 1 ≤ c1)
    (u' : otpUse M C O s' i n k' b' s2) (h' : otpKey C s2 i n v' (c' + 1) d') :
    OtpUses M C O i n 0 s [(k, b, c), (k', b', c')] :=
  .use (tr := []) (fun _ _ _ _ => Nat.zero_le _) u h (.use (tr := []) hlo u' h' (.nil _ _))

/-- A history for `C38_no_reuse`. -/
example : ∃ c c', OtpUses exOtpMechs exCrypto exOracle 7 7 0 (exOtpRun []) [(.sign, exOtp 0, c), (.verify, exOtp 5, c')] := by
  obtain ⟨v, c, d, _, _, _, h1⟩ := C38_sign exOtp_ok exFiles (exHotp ++ []) exUse_sign
  obtain ⟨v', c', d', j, _, _, _, _, h2⟩ := C38_verify exOtp_ok exFiles (exHotp ++ exOtpSign 1) exUse_verify
  refine ⟨c, c' + j, otp_two exUse_sign h1 (fun v1 c1 d1 hk => ?_) exUse_verify h2⟩
  have ht := tinv_reach exOtpMechs exOracle exFiles (exHotp ++ exOtpSign 1) (C := exCrypto)
  obtain ⟨_, hc, _⟩ := otp_unique ht h1 hk
  omega

set_option maxRecDepth 20000 in
/-- The full property is false: the counter is read by C_SignInit (`src/hotp.rs:402-460`) and stored by C_Sign, so two sessions that begin
before either has signed answer the same value. -/
theorem C38_two_violation : ∃ (H : OtpHash) (M : Mechs) (C : Crypto) (O : Oracle) (tr : Trace) (h h' i n : Nat) (q : OpIn) (e : Env) (b : Bytes),
    OtpOk H ∧ (∃ parse, M = withHotp H parse exMechs) ∧ h ≠ h' ∧ onSlot M C O (run M C O (St.init []) tr) h i ∧
      onSlot M C O (run M C O (St.init []) tr) h' i ∧
      outs M C O (run M C O (St.init []) tr) [(e, .op h (.opInit .sign (some (CKM_HOTP, [])) n [])),
        (e, .op h' (.opInit .sign (some (CKM_HOTP, [])) n [])), (e, .op h (.opRun .sign .oneShot q)), (e, .op h' (.opRun .sign .oneShot q))] =
      [.ok, .ok, .bytes b, .bytes b] := by
  refine ⟨exOtpHash, exOtpMechs, exCrypto, exOracle, exHotp, 1, 2, 7, 7, ⟨[], [], [], [], some 46⟩, exEnv 9, exOtp 0, exOtp_ok, ⟨_, rfl⟩,
    by decide, ⟨quietEnv, .rwUser, 6, by decide +kernel⟩, ⟨quietEnv, .roUser, 4, by decide +kernel⟩, by decide +kernel⟩

set_option maxRecDepth 20000 in
/-- The full property is false: C_SetAttributeValue puts the counter back (`src/hotp.rs:97-110` marks CKA_OTP_COUNTER SettableOnlyOnCreate, which
`src/object/factory.rs:484-513` does not look at), and the same value is answered again. -/
theorem C38_back_violation : ∃ (H : OtpHash) (M : Mechs) (C : Crypto) (O : Oracle) (tr : Trace) (h i n : Nat) (q : OpIn) (e : Env) (b c : Bytes),
    OtpOk H ∧ (∃ parse, M = withHotp H parse exMechs) ∧ onSlot M C O (run M C O (St.init []) tr) h i ∧
      outs M C O (run M C O (St.init []) tr) [(e, .op h (.opInit .sign (some (CKM_HOTP, [])) n [])), (e, .op h (.opRun .sign .oneShot q)),
        (e, .sess h (.setAttr n [.mk' CKA_OTP_COUNTER c])), (e, .op h (.opInit .sign (some (CKM_HOTP, [])) n [])),
        (e, .op h (.opRun .sign .oneShot q))] =
      [.ok, .bytes b, .ok, .ok, .bytes b] := by
  refine ⟨exOtpHash, exOtpMechs, exCrypto, exOracle, exHotp, 1, 7, 7, ⟨[], [], [], [], some 46⟩, exEnv 9, exOtp 0, List.replicate 8 0, exOtp_ok,
    ⟨_, rfl⟩, ⟨quietEnv, .rwUser, 6, by decide +kernel⟩, by decide +kernel⟩

set_option maxRecDepth 20000 in
/-- The last counter: the addition overflows (`src/hotp.rs:580-585`), a panic in a checked build. -/
theorem C38_last_violation : ∃ (H : OtpHash) (M : Mechs) (C : Crypto) (O : Oracle) (tr : Trace) (h i n : Nat) (q : OpIn) (e : Env) (c : Bytes),
    OtpOk H ∧ (∃ parse, M = withHotp H parse exMechs) ∧ onSlot M C O (run M C O (St.init []) tr) h i ∧
      outs M C O (run M C O (St.init []) tr) [(e, .sess h (.setAttr n [.mk' CKA_OTP_COUNTER c])),
        (e, .op h (.opInit .sign (some (CKM_HOTP, [])) n [])), (e, .op h (.opRun .sign .oneShot q))] = [.ok, .ok, .err .panic] := by
  refine ⟨exOtpHash, exOtpMechs, exCrypto, exOracle, exHotp, 1, 7, 7, ⟨[], [], [], [], some 46⟩, exEnv 9, List.replicate 8 255, exOtp_ok,
    ⟨_, rfl⟩, ⟨quietEnv, .rwUser, 6, by decide +kernel⟩, by decide +kernel⟩

end Kry

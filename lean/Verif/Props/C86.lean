import Verif.Model.AesCalls
import Verif.Props.C52
import Verif.Props.C53
import Verif.Props.C54
import Verif.Props.C57
import Verif.Props.C58
import Verif.Props.C85

/-!
# C86: AES through the calls of a session

After a successful C_EncryptInit or C_DecryptInit, whatever else is called, the calls of this operation and their answers are an encryption or decryption of the
application's data with the value of the key object: `C86_calls` (the general statement), `C86_encrypt`, `C86_pad`, `C86_back` (CBC and ECB), `C86_ctr`, `C86_gcm`, `C86_ccm`.
-/

namespace Kry
namespace Spec

/-- A call of an encryption or decryption. -/
def cryptCall (a : Act) (b : OpIn) : Option AesCall :=
  match a with
  | .update => some (.update b.data b.out)
  | .oneShot => some (.oneShot b.data b.out)
  | .final => some (.final b.out)
  | _ => none

/-- An answer of such a call. -/
def cryptOut : Out → Option (Res AesOut)
  | .bytes b => some (.ok (.data b))
  | .size n => some (.ok (.len n))
  | .err r => some (.error r)
  | _ => none

/-- The calls of operation `k` of session `h` with their answers, in order, as the application saw them. -/
def crypted (h : Nat) (k : OpKind) (l : List (Call × Out)) : List (AesCall × Res AesOut) :=
  l.filterMap fun p => match p.1 with
    | .op h' (.opRun k' a b) => if h' = h ∧ k' = k then
        match cryptCall a b, cryptOut p.2 with
        | some c, some r => some (c, r)
        | _, _ => none
      else none
    | _ => none

/-- After `tr`, session `h` on slot `i` starts encryption or decryption `k` with mechanism `m`, parameter `q` and a key of value `v` whose use needs no login of its own, which
succeeds.  Then the calls of `tr2` are made, by anyone, none of which is by its meaning about this operation or a start that may ask for a login (`meddles`), and the session
is still open.  `X` are the calls of the operation and the answers. -/
structure Crypts (M : Mechs) (C : Crypto) (O : Oracle) (d : List (Nat × Db)) (tr : Trace) (e : Env) (h i : Nat) (k : OpKind) (m : Nat) (q : Bytes) (key : Nat) (v : Bytes)
    (tr2 : Trace) (X : List (AesCall × Res AesOut)) : Prop where
  there : onSlot M C O (after M C O d tr) h i
  value : Seen C (after M C O d tr) i key fun o => o.getBytes CKA_VALUE = .ok v
  calm : k = .dec → Seen C (after M C O d tr) i key fun o => o.getBool CKA_ALWAYS_AUTHENTICATE ≠ .ok true
  started : (step M C O e (after M C O d tr) (.op h (.opInit k (some (m, q)) key []))).1 = .ok
  quiet : ∀ p ∈ tr2, meddles h k p.2 = false
  same : ∀ p ∈ hist M C O (step M C O e (after M C O d tr) (.op h (.opInit k (some (m, q)) key []))).2 tr2, ∀ j f, p.1 = .openSession j f → p.2 ≠ .handle h
  still : ∃ j, onSlot M C O (run M C O (step M C O e (after M C O d tr) (.op h (.opInit k (some (m, q)) key []))).2 tr2) h j
  exchange : X = crypted h k (hist M C O (step M C O e (after M C O d tr) (.op h (.opInit k (some (m, q)) key []))).2 tr2)

end Spec

open Spec

variable {M : Mechs} {C : Crypto} {O : Oracle} {L : Bytes → AesLib} {mem : Bytes → AesParam}

/-! ## The serial form -/

theorem natDigits_from (f n : Nat) (h : n < 256 ^ f) : fromLE (natDigits f n) = n := by
  induction f generalizing n with
  | zero => simp at h; subst h; rfl
  | succ f ih =>
    unfold natDigits
    by_cases h0 : n = 0
    · subst h0; rfl
    · rw [if_neg h0]
      show (UInt8.ofNat (n % 256)).toNat + 256 * fromLE (natDigits f (n / 256)) = n
      rw [ih _ (by rw [Nat.pow_succ] at h; omega)]
      have : (UInt8.ofNat (n % 256)).toNat = n % 256 := by simp
      omega

theorem packNat_from (n : Nat) : fromLE (packNat n) = n := by
  unfold packNat
  apply natDigits_from
  have h1 : n < 2 ^ (n.log2 + 1) := Nat.lt_log2_self
  exact Nat.lt_of_lt_of_le h1 (Nat.pow_le_pow_left (by omega) _)

theorem unpackL_pack (l : List Bytes) : unpackL l.length (packL l) = l := by
  induction l with
  | nil => rfl
  | cons b l ih =>
    show (unpackB (packB b ++ packL l)).1 :: unpackL l.length (unpackB (packB b ++ packL l)).2 = _
    rw [unpackB_pack, ih]

theorem packMech_un (m : AesMech) : unpackMech (packMech m) = m := by cases m <;> rfl

theorem packBool_un (b : Bool) : (packBool b != []) = b := by cases b <;> rfl

theorem aesOf_op (m : Nat) (key : Bytes) (o : AesOp) : aesOf (aesOp m key o) = some (key, o) := by
  unfold aesOf
  show AesOp.read o.finalized (unpackL (o.fields key).length (packL (o.fields key))) = _
  rw [unpackL_pack]
  unfold AesOp.fields AesOp.read
  simp only [packMech_un, packBool_un, packNat_from]

/-! ## Calls -/

theorem aesDo_op (m : Nat) (key : Bytes) (o : AesOp) (c : AesCall) :
    aesDo L (aesOp m key o) c = ((aesCall (L key) o c).1, aesOp m key (aesCall (L key) o c).2) := by
  unfold aesDo
  rw [aesOf_op]
  rfl

theorem aesData_kind (p : Res Bytes × AesOp) (n : Nat) : (aesData p).1 ≠ .ok (.len n) := by
  obtain ⟨r, o⟩ := p
  cases r <;> simp [aesData]

theorem aesLen_kind (p : Res Nat × AesOp) (b : Bytes) : (aesLen p).1 ≠ .ok (.data b) := by
  obtain ⟨r, o⟩ := p
  cases r <;> simp [aesLen]

theorem call_data (l : AesLib) (o : AesOp) (a : Act) (d : Bytes) (room n : Nat) : (aesCall l o (aesCallOf a d (some room))).1 ≠ .ok (.len n) := by
  unfold aesCall aesCallOf
  cases a <;> (simp only; repeat' split) <;> first | exact aesData_kind _ _ | nofun

theorem call_len (l : AesLib) (o : AesOp) (a : Act) (d : Bytes) (b : Bytes) : (aesCall l o (aesCallOf a d none)).1 ≠ .ok (.data b) := by
  unfold aesCall aesCallOf
  cases a <;> (simp only; repeat' split) <;> first | exact aesLen_kind _ _ | nofun

theorem call_zeros (l : AesLib) (o : AesOp) (a : Act) (d : Bytes) : aesCall l o (aesCallOf a (List.replicate d.length 0) none) = aesCall l o (aesCallOf a d none) := by
  unfold aesCall aesCallOf
  cases a <;> simp only [List.length_replicate]

/-- The answer of a call. -/
def aesAnswer : Res AesOut → Out
  | .ok (.data b) => .bytes b
  | .ok (.len n) => .size n
  | .error r => .err r

theorem cryptOut_answer (r : Res AesOut) : cryptOut (aesAnswer r) = some r := by
  cases r with
  | error r => rfl
  | ok r => cases r <;> rfl

theorem cryptCall_of {a : Act} {b : OpIn} {c : AesCall} (h : cryptCall a b = some c) : soloCall a ∧ c = aesCallOf a b.data b.out := by
  unfold cryptCall at h
  cases a <;> first
    | (cases h; done)
    | (injection h with h; subst h; exact ⟨by decide, rfl⟩)

theorem cryptCall_none {a : Act} {b : OpIn} (h : cryptCall a b = none) : ¬ soloCall a := by
  unfold cryptCall at h
  cases a <;> first
    | (cases h; done)
    | decide

variable {m : Nat} {mm : AesMech} {k : OpKind}

/-- One call of the operation. -/
theorem solo_aes (hm : aesMech m = some mm) (hk : k = .enc ∨ k = .dec) (e : Env) {a : Act} {b : OpIn} {c : AesCall} (hc : cryptCall a b = some c) (key : Bytes) (o : AesOp) :
    solo (withAes M L mem) e k a b (aesOp m key o) = (aesAnswer (aesCall (L key) o c).1, aesOp m key (aesCall (L key) o c).2) := by
  obtain ⟨h1, rfl⟩ := cryptCall_of hc
  unfold solo
  rw [if_pos h1]
  by_cases hf : o.finalized = true
  · rw [if_pos (show (aesOp m key o).fin = true from hf)]
    unfold aesCall
    rw [if_pos hf]
    rfl
  rw [if_neg (show ¬ (aesOp m key o).fin = true from hf)]
  have hl : soloLive (withAes M L mem) e k a b (aesOp m key o) = soloCrypt (M := withAes M L mem) e k a b (aesOp m key o) := by
    unfold soloLive
    split <;> rw [if_pos hk]
  rw [hl]
  unfold soloCrypt
  have hx : (aesMech (aesOp m key o).mech).isSome = true ∧ (k = .enc ∨ k = .dec) := ⟨by show (aesMech m).isSome = true; rw [hm]; rfl, hk⟩
  cases hb : b.out with
  | none =>
    have e1 : lenOp (withAes M L mem) k a (aesOp m key o) b.data.length =
        ((aesCall (L key) o (aesCallOf a b.data none)).1.map AesOut.size, aesOp m key (aesCall (L key) o (aesCallOf a b.data none)).2) := by
      unfold lenOp withAes
      simp only [if_pos hx, aesDo_op, call_zeros]
      rfl
    simp only [e1]
    have := call_len (L key) o a b.data
    generalize aesCall (L key) o (aesCallOf a b.data none) = q at this
    obtain ⟨r, o'⟩ := q
    cases r with
    | error r => rfl
    | ok r =>
      cases r with
      | data d => exact absurd rfl (this d)
      | len n => rfl
  | some room =>
    have e1 : runOp (withAes M L mem) e k a (aesOp m key o) b =
        ((aesCall (L key) o (aesCallOf a b.data (some room))).1.map AesOut.bytes, aesOp m key (aesCall (L key) o (aesCallOf a b.data (some room))).2) := by
      unfold runOp withAes
      simp only [if_pos hx, aesDo_op, hb, Option.getD_some]
      rfl
    simp only [e1]
    have := call_data (L key) o a b.data room
    generalize aesCall (L key) o (aesCallOf a b.data (some room)) = q at this
    obtain ⟨r, o'⟩ := q
    cases r with
    | error r => rfl
    | ok r =>
      cases r with
      | data d => rfl
      | len n => exact absurd rfl (this n)

theorem solo_none (e : Env) {a : Act} {b : OpIn} (hc : cryptCall a b = none) (v : Op) : solo M e k a b v = (.err .functionNotSupported, v) := by
  unfold solo
  rw [if_neg (cryptCall_none hc)]

/-- AES changes no stored object, if the other uses of the mechanism do not. -/
theorem withAes_stateless (hs : Stateless M m) : Stateless (withAes M L mem) m where
  new := by
    intro e k q key sig op h
    change (match aesMech m with
      | some mm => _
      | none => _) = _ at h
    cases hm : aesMech m with
    | none => rw [hm] at h; exact hs.new e k q key sig op h
    | some mm =>
      rw [hm] at h
      simp only at h
      split at h
      · split at h
        · unfold aesStart at h
          repeat' split at h
          all_goals first | (cases h; done) | skip
          all_goals (injection h with h; subst h; rfl)
        · cases h
      · exact hs.new e k q key sig op h
  run := by
    intro e k a op i hm hu
    show (if (aesMech op.mech).isSome ∧ (k = .enc ∨ k = .dec) then _ else _ : Res Bytes × Op).2.upd = none
    split
    · unfold aesDo
      split
      · exact hu
      · rfl
    · exact hs.run e k a op i hm hu
  len := by
    intro k a op n hm hu
    show (if (aesMech op.mech).isSome ∧ (k = .enc ∨ k = .dec) then _ else _ : Res Nat × Op).2.upd = none
    split
    · unfold aesDo
      split
      · exact hu
      · rfl
    · exact hs.len k a op n hm hu

/-! ## The session stays -/

/-- A session that is there after calls that did not open it was there before. -/
theorem there_before {s : St} (hi : Inv s) {e : Env} {c : Call} {h j : Nat} (hn : ∀ i f, c = .openSession i f → (step M C O e s c).1 ≠ .handle h)
    (hl : AMap.get (step M C O e s c).2.smap h = some j) : AMap.get s.smap h = some j := by
  have i1 := inv_step M (C := C) O e s c hi
  obtain ⟨sl', y, g1, g2⟩ := (i1.link h j).1 hl
  have mv := step_sess hi g1 g2
  generalize (step M C O e s c).1 = a at mv hn
  cases mv with
  | opened f => exact absurd rfl (hn _ _ rfl)
  | kept c a sl x hs hx => exact (hi.link h j).2 ⟨sl, x, hs, hx⟩
  | loggedIn pin sl x hs hx => exact (hi.link h j).2 ⟨sl, x, hs, hx⟩
  | sess sc sl x hg =>
    obtain ⟨_, _, g1, g2⟩ := getSession_ok hg
    exact (hi.link h j).2 ⟨sl, x, g1, g2⟩
  | op oc sl x hg =>
    obtain ⟨_, _, g1, g2⟩ := getSession_ok hg
    exact (hi.link h j).2 ⟨sl, x, g1, g2⟩

theorem there_run (tr : Trace) {s : St} (hi : Inv s) {h j : Nat} (hn : ∀ p ∈ hist M C O s tr, ∀ i f, p.1 = .openSession i f → p.2 ≠ .handle h)
    (hl : AMap.get (run M C O s tr).smap h = some j) : AMap.get s.smap h = some j := by
  induction tr generalizing s with
  | nil => exact hl
  | cons p tr ih =>
    obtain ⟨e, c⟩ := p
    exact there_before hi (fun i f => hn _ List.mem_cons_self i f)
      (ih (inv_step M (C := C) O e s c hi) (fun p hp => hn p (List.mem_cons_of_mem _ hp)) hl)

/-! ## All calls -/

theorem crypted_other {h : Nat} {c : Call} {r : Out} {l : List (Call × Out)} (hc : own h k c = false) : crypted h k ((c, r) :: l) = crypted h k l := by
  unfold crypted
  rw [List.filterMap_cons_none]
  simp only
  split
  · rw [if_neg]
    rintro ⟨rfl, rfl⟩
    simp [own] at hc
  · rfl

/-- The exchange of the operation in the machine is that of the operation by itself. -/
theorem crypted_run {h j : Nat} (hs : Stateless M m) (hm : aesMech m = some mm) (hk : k = .enc ∨ k = .dec) (tr : Trace) {s : St} {key : Bytes} {o : AesOp} (hi : Inv s)
    (hb : Having h k (aesOp m key o) s) (h1 : ∀ p ∈ tr, meddles h k p.2 = false)
    (h2 : ∀ p ∈ hist (withAes M L mem) C O s tr, ∀ j f, p.1 = .openSession j f → p.2 ≠ .handle h)
    (hl : AMap.get (run (withAes M L mem) C O s tr).smap h = some j) :
    (crypted h k (hist (withAes M L mem) C O s tr)).map (·.2) = (aesRun (L key) o ((crypted h k (hist (withAes M L mem) C O s tr)).map (·.1))).1 ∧
      Having h k (aesOp m key (aesRun (L key) o ((crypted h k (hist (withAes M L mem) C O s tr)).map (·.1))).2) (run (withAes M L mem) C O s tr) := by
  have hm' := withAes_stateless (L := L) (mem := mem) hs
  have hk' : manyMessages k = false := by rcases hk with hk | hk <;> subst hk <;> rfl
  induction tr generalizing s o with
  | nil => exact ⟨rfl, hb⟩
  | cons p tr ih =>
    obtain ⟨e, c⟩ := p
    have i1 := inv_step (withAes M L mem) (C := C) O e s c hi
    have t1 : ∀ p ∈ tr, meddles h k p.2 = false := fun p hp => h1 p (List.mem_cons_of_mem _ hp)
    have t3 : ∀ p ∈ hist (withAes M L mem) C O (step (withAes M L mem) C O e s c).2 tr, ∀ j f, p.1 = .openSession j f → p.2 ≠ .handle h :=
      fun p hp => h2 p (List.mem_cons_of_mem _ hp)
    have hv : Plainly m (aesOp m key o) := ⟨rfl, rfl⟩
    show (crypted h k ((c, (step (withAes M L mem) C O e s c).1) :: hist (withAes M L mem) C O (step (withAes M L mem) C O e s c).2 tr)).map (·.2) =
      (aesRun (L key) o ((crypted h k ((c, (step (withAes M L mem) C O e s c).1) :: hist (withAes M L mem) C O (step (withAes M L mem) C O e s c).2 tr)).map (·.1))).1 ∧
      Having h k (aesOp m key (aesRun (L key) o ((crypted h k ((c, (step (withAes M L mem) C O e s c).1) ::
        hist (withAes M L mem) C O (step (withAes M L mem) C O e s c).2 tr)).map (·.1))).2) (run (withAes M L mem) C O (step (withAes M L mem) C O e s c).2 tr)
    cases hc : own h k c with
    | false =>
      rw [crypted_other hc]
      exact ih i1 (having_step hi hb (h1 _ List.mem_cons_self) hc (h2 _ List.mem_cons_self)) t1 t3 hl
    | true =>
      obtain ⟨a, b, rfl⟩ := own_iff.1 hc
      have hal : AMap.get s.smap h = some j := there_run ((e, .op h (.opRun k a b)) :: tr) hi h2 hl
      have ans := own_answer (C := C) (O := O) hm' hv hk' hi hb hal e a b
      have hav := having_own (C := C) (O := O) (e := e) (a := a) (b := b) hm' hv hk' hi hb
      cases hq : cryptCall a b with
      | none =>
        rw [solo_none e hq] at ans hav
        have : crypted h k ((.op h (.opRun k a b), (step (withAes M L mem) C O e s (.op h (.opRun k a b))).1) ::
            hist (withAes M L mem) C O (step (withAes M L mem) C O e s (.op h (.opRun k a b))).2 tr) =
            crypted h k (hist (withAes M L mem) C O (step (withAes M L mem) C O e s (.op h (.opRun k a b))).2 tr) := by
          unfold crypted
          rw [List.filterMap_cons_none]
          simp only [and_self, if_true, hq]
        rw [this]
        exact ih i1 hav t1 t3 hl
      | some q =>
        rw [solo_aes hm hk e hq key o] at ans hav
        have : crypted h k ((.op h (.opRun k a b), (step (withAes M L mem) C O e s (.op h (.opRun k a b))).1) ::
            hist (withAes M L mem) C O (step (withAes M L mem) C O e s (.op h (.opRun k a b))).2 tr) =
            (q, (aesCall (L key) o q).1) :: crypted h k (hist (withAes M L mem) C O (step (withAes M L mem) C O e s (.op h (.opRun k a b))).2 tr) := by
          unfold crypted
          rw [List.filterMap_cons_some]
          simp only [and_self, if_true, hq, ans, cryptOut_answer]
        rw [this]
        obtain ⟨j1, j2⟩ := ih i1 hav t1 t3 hl
        refine ⟨?_, j2⟩
        show (aesCall (L key) o q).1 :: _ = (aesCall (L key) o q).1 :: _
        rw [j1]
        rfl

variable {d : List (Nat × Db)} {tr tr2 : Trace} {e : Env} {h i key : Nat} {q v : Bytes} {X : List (AesCall × Res AesOut)}

/-- **C86**: the exchange is that of an AES operation with the value of the key, made for the mechanism and its parameter. -/
theorem C86_calls (hs : Stateless M m) (hm : aesMech m = some mm) (hk : k = .enc ∨ k = .dec) (hX : Crypts (withAes M L mem) C O d tr e h i k m q key v tr2 X) :
    ∃ p o, aesParamOf mem mm q = .ok p ∧ aesNew mm p (decide (k = .enc)) = .ok o ∧ X.map (·.2) = (aesRun (L v) o (X.map (·.1))).1 := by
  obtain ⟨h1, h2, h3, h4, h5, h6, ⟨j, h7⟩, h8⟩ := hX
  have i0 := inv_reach (withAes M L mem) (C := C) O d tr
  have i1 := inv_step (withAes M L mem) (C := C) O e _ (.op h (.opInit k (some (m, q)) key [])) i0
  have hm' := withAes_stateless (L := L) (mem := mem) hs
  obtain ⟨op, t0, b0, -, n2⟩ := begun (M := withAes M L mem) (C := C) (O := O) i0 hm' ((onSlot_iff i0).1 h1)
    (fun hk' => h3 (by rcases hk with hk | hk <;> rcases hk' with hk' | hk' <;> rw [hk] at hk' <;> first | exact hk | cases hk')) h4
  obtain ⟨sl, x, g1, g2, g3⟩ := n2 (by rcases hk with hk | hk <;> rw [hk] <;> nofun)
  obtain ⟨sl2, g4, sv⟩ := h2
  rw [g1] at g4; injection g4 with g4; subst g4
  obtain ⟨x2, g5, hval⟩ := sv quietEnv (fun _ => rfl)
  have := byHandle_mono (e' := quietEnv) (fun _ => rfl) g2
  rw [g5] at this; injection this with this; subst this
  have hnew : ∃ op', aesStart mem mm m q (decide (k = .enc)) x2 = .ok op' ∧ op = { op' with mech := m, fin := false, busy := false } := by
    unfold newOp at g3
    simp only at g3
    split at g3
    · cases g3
    · cases hn : (withAes M L mem).new (e.sub 1) k m q (some x2) [] with
      | error r => rw [hn] at g3; cases g3
      | ok o =>
        rw [hn] at g3
        injection g3 with g3
        refine ⟨o, ?_, g3.symm⟩
        change (match aesMech m with
          | some mm => _
          | none => _) = _ at hn
        rw [hm] at hn
        simp only [if_pos hk] at hn
        exact hn
  obtain ⟨op', hst, rfl⟩ := hnew
  unfold aesStart at hst
  rw [hval] at hst
  cases hp : aesParamOf mem mm q with
  | error r => rw [hp] at hst; cases hst
  | ok p =>
    rw [hp] at hst
    simp only at hst
    cases ho : aesNew mm p (decide (k = .enc)) with
    | error r => rw [ho] at hst; cases hst
    | ok o =>
      rw [ho] at hst
      simp only at hst
      split at hst
      · injection hst with hst; subst hst
        have hf : o.finalized = false := by
          unfold aesNew at ho
          split at ho
          · cases ho
          · injection ho with ho; subst ho; rfl
        have hop : ({ aesOp m v o with mech := m, fin := false, busy := false } : Op) = aesOp m v o := by
          unfold aesOp; rw [hf]
        rw [hop] at b0
        generalize (step (withAes M L mem) C O e (after (withAes M L mem) C O d tr) (.op h (.opInit k (some (m, q)) key []))).2 = s at i1 b0 h6 h7 h8
        have j1 := inv_run (withAes M L mem) (C := C) O tr2 s i1
        have := (crypted_run hs hm hk tr2 i1 b0 h5 h6 ((onSlot_iff j1).1 h7)).1
        subst h8
        exact ⟨p, o, rfl, ho, this⟩
      · cases hst

/-! ## What the application gets -/

theorem aesRun_snoc (l : AesLib) (cs : List AesCall) (c : AesCall) (o : AesOp) :
    (aesRun l o (cs ++ [c])).1 = (aesRun l o cs).1 ++ [(aesCall l (aesRun l o cs).2 c).1] := by
  induction cs generalizing o with
  | nil => rfl
  | cons x cs ih =>
    show (aesCall l o x).1 :: (aesRun l (aesCall l o x).2 (cs ++ [c])).1 = _
    rw [ih]
    rfl

/-- The last call of an exchange. -/
theorem last_call {l : AesLib} {o : AesOp} {Y : List (AesCall × Res AesOut)} {c : AesCall} {r : Res AesOut}
    (hX : (Y ++ [(c, r)]).map (·.2) = (aesRun l o ((Y ++ [(c, r)]).map (·.1))).1) :
    Y.map (·.2) = (aesRun l o (Y.map (·.1))).1 ∧ r = (aesCall l (aesRun l o (Y.map (·.1))).2 c).1 := by
  rw [List.map_append, List.map_append, List.map_singleton, List.map_singleton, aesRun_snoc] at hX
  have := List.append_inj' hX rfl
  exact ⟨this.1, by injection this.2⟩

/-- The data of an exchange that was accepted, and what was written. -/
def Spec.gave (X : List (AesCall × Res AesOut)) : Bytes := taken (X.map (·.1)) (X.map (·.2))

/-- The bytes the calls of an exchange wrote. -/
def Spec.got (X : List (AesCall × Res AesOut)) : Bytes := written (X.map (·.2))

/-- All calls of an exchange are C_EncryptUpdate (C_DecryptUpdate). -/
def Spec.byParts (X : List (AesCall × Res AesOut)) : Prop := updates (X.map (·.1))

variable {Y : List (AesCall × Res AesOut)} {r : Res AesOut} {room : Nat}

theorem block_mech (hm : m = CKM_AES_ECB ∨ m = CKM_AES_CBC ∨ m = CKM_AES_CBC_PAD) :
    ∃ mm, aesMech m = some mm ∧ (mm = .ecb ∨ mm = .cbc ∨ mm = .cbcPad) ∧ (mm != .ecb) = (m != CKM_AES_ECB) ∧
      ∀ p, aesParamOf mem mm q = .ok p → mm = .ecb ∨ Spec.ivOf p = q := by
  rcases hm with rfl | rfl | rfl
  · exact ⟨.ecb, rfl, .inl rfl, rfl, fun p h => .inl rfl⟩
  · exact ⟨.cbc, rfl, .inr (.inl rfl), rfl, fun p h => .inr (by injection h with h; subst h; rfl)⟩
  · exact ⟨.cbcPad, rfl, .inr (.inr rfl), rfl, fun p h => .inr (by injection h with h; subst h; rfl)⟩

theorem enciphered_ecb {E : Bytes → Bytes} {iv iv' a b : Bytes} (h : enciphered false E iv a b) : enciphered false E iv' a b := h

/-- **C86**, ECB and CBC by parts: every C_EncryptUpdate succeeds unless its buffer is too small, and what was written is the encryption of the whole blocks accepted, with the
value of the key and the IV given. -/
theorem C86_encrypt (hs : Stateless M m) (hm : m = CKM_AES_ECB ∨ m = CKM_AES_CBC ∨ m = CKM_AES_CBC_PAD)
    (hX : Crypts (withAes M L mem) C O d tr e h i .enc m q key v tr2 X) (hu : byParts X) :
    (∀ p ∈ X, p.2 = .error .bufferTooSmall ∨ ∃ a, p.2 = .ok a) ∧ enciphered (m != CKM_AES_ECB) (L v).enc q (gave X) (got X) := by
  obtain ⟨mm, h1, h2, h3, h4⟩ := block_mech (mem := mem) (q := q) hm
  obtain ⟨p, o, hp, ho, hr⟩ := C86_calls hs h1 (.inl rfl) hX
  obtain ⟨a1, a2⟩ := C52_parts (L v) mm p o h2 ho _ hu
  rw [← hr] at a1 a2
  refine ⟨fun x hx => a1 x.2 (List.mem_map_of_mem hx), ?_⟩
  rw [h3] at a2
  rcases h4 p hp with h | h
  · have hb : (m != CKM_AES_ECB) = false := by rw [← h3, h]; rfl
    rw [hb] at a2 ⊢
    exact enciphered_ecb a2
  · rw [h] at a2; exact a2

/-- **C86**, CBC with padding: C_EncryptFinal with room for a block ends the encryption of the padded data. -/
theorem C86_pad (hs : Stateless M CKM_AES_CBC_PAD) (hX : Crypts (withAes M L mem) C O d tr e h i .enc CKM_AES_CBC_PAD q key v tr2 (Y ++ [(.final (some room), r)]))
    (hu : byParts Y) (ha : attempted (Y.map (·.1))) (hroom : 16 ≤ room) :
    ∃ b, r = .ok (.data b) ∧ enciphered true (L v).enc q (padded (gave Y)) (got Y ++ b) := by
  obtain ⟨p, o, hp, ho, hr⟩ := C86_calls hs (mm := .cbcPad) rfl (.inl rfl) hX
  obtain ⟨y1, y2⟩ := last_call hr
  obtain ⟨part, room', hc⟩ := ha
  obtain ⟨b, b1, b2⟩ := (C52_pad (L v) p o ho _ hu part room' room hc).2 hroom
  injection hp with hp; subst hp
  rw [← y1] at b2
  exact ⟨b, y2.trans b1, b2⟩

/-- **C86**, decryption by parts, ECB and CBC: given any part of the encryption of `t`, the calls write `t`, as far as whole blocks were given. -/
theorem C86_decrypt {t rest : Bytes} (hs : Stateless M m) (hm : m = CKM_AES_ECB ∨ m = CKM_AES_CBC) (hX : Crypts (withAes M L mem) C O d tr e h i .dec m q key v tr2 X)
    (hu : byParts X) (ht : t.length % 16 = 0) (hE : enciphered (m != CKM_AES_ECB) (L v).enc q t (gave X ++ rest)) :
    (∀ p ∈ X, p.2 = .error .bufferTooSmall ∨ ∃ a, p.2 = .ok a) ∧ got X = t.take ((gave X).length / 16 * 16) := by
  obtain ⟨mm, h1, h2, h3, h4⟩ := block_mech (mem := mem) (q := q) (m := m) (by rcases hm with h | h <;> simp [h])
  have h2' : mm = .ecb ∨ mm = .cbc := by
    rcases h2 with h | h | h
    · exact .inl h
    · exact .inr h
    · subst h
      rcases hm with rfl | rfl <;> cases h1
  obtain ⟨p, o, hp, ho, hr⟩ := C86_calls hs h1 (.inr rfl) hX
  have hE' : enciphered (mm != .ecb) (L v).enc (Spec.ivOf p) t (gave X ++ rest) := by
    rw [← h3] at hE
    rcases h4 p hp with h | h
    · have hb : (mm != .ecb) = false := by rw [h]; rfl
      rw [hb] at hE ⊢
      exact enciphered_ecb hE
    · rw [h]; exact hE
  unfold gave at hE'
  rw [hr] at hE'
  obtain ⟨a1, a2⟩ := C53_parts (L v) mm p o h2' ho _ hu t rest ht hE'
  rw [← hr] at a1 a2
  exact ⟨fun x hx => a1 x.2 (List.mem_map_of_mem hx), a2⟩

/-- **C86**, decryption by parts, CBC with padding: given the encryption of the padded `t`, the calls write `t`.  (A first part of less than a block makes the operation
fail: `C53_small_first_violation`.) -/
theorem C86_unpad_partial {t : Bytes} (hs : Stateless M CKM_AES_CBC_PAD)
    (hX : Crypts (withAes M L mem) C O d tr e h i .dec CKM_AES_CBC_PAD q key v tr2 (Y ++ [(.final (some room), r)]))
    (hu : byParts Y) (ha : attempted (Y.map (·.1))) (ho' : 16 ≤ (opening (Y.map (·.1)) (Y.map (·.2))).length) (hroom : 16 ≤ room)
    (hE : enciphered true (L v).enc q (padded t) (gave Y)) : ∃ b, r = .ok (.data b) ∧ got Y ++ b = t := by
  obtain ⟨p, o, hp, ho, hr⟩ := C86_calls hs (mm := .cbcPad) rfl (.inr rfl) hX
  obtain ⟨y1, y2⟩ := last_call hr
  obtain ⟨part, room', hc⟩ := ha
  injection hp with hp; subst hp
  unfold gave at hE
  rw [y1] at ho' hE
  obtain ⟨-, b, b1, b2⟩ := C53_pad_partial (L v) (.iv q) o ho _ hu part room' room hc ho' hroom t hE
  rw [← y1] at b2
  exact ⟨b, y2.trans b1, b2⟩

variable {d' : List (Nat × Db)} {tr' tr2' : Trace} {e' : Env} {h' i' key' : Nat} {q' : Bytes} {X' Y' : List (AesCall × Res AesOut)} {r' : Res AesOut} {room' : Nat}
  {C' : Crypto} {O' : Oracle}

/-- **C86**, there and back: what one session encrypted with CKM_AES_CBC_PAD, another (or the same one, later, or one of another token that has the key) decrypts. -/
theorem C86_roundtrip_partial (hs : Stateless M CKM_AES_CBC_PAD)
    (hX : Crypts (withAes M L mem) C O d tr e h i .enc CKM_AES_CBC_PAD q key v tr2 (Y ++ [(.final (some room), r)]))
    (hu : byParts Y) (ha : attempted (Y.map (·.1))) (hroom : 16 ≤ room)
    (hX' : Crypts (withAes M L mem) C' O' d' tr' e' h' i' .dec CKM_AES_CBC_PAD q key' v tr2' (Y' ++ [(.final (some room'), r')]))
    (hu' : byParts Y') (ha' : attempted (Y'.map (·.1))) (ho' : 16 ≤ (opening (Y'.map (·.1)) (Y'.map (·.2))).length) (hroom' : 16 ≤ room')
    (hsame : gave Y' = got (Y ++ [(.final (some room), r)])) : got (Y' ++ [(.final (some room'), r')]) = gave Y := by
  have hgot : ∀ (Z : List (AesCall × Res AesOut)) (n : Nat) (b : Bytes), got (Z ++ [(.final (some n), .ok (.data b))]) = got Z ++ b := by
    intro Z n b
    unfold got
    rw [List.map_append, List.map_singleton]
    generalize Z.map (·.2) = l
    induction l with
    | nil => simp [written]
    | cons x l ih =>
      rcases x with x | x
      · exact ih
      · cases x with
        | data c => show c ++ written (l ++ _) = c ++ written l ++ b; rw [ih, List.append_assoc]
        | len n => exact ih
  obtain ⟨b, rfl, hE⟩ := C86_pad hs hX hu ha hroom
  rw [hgot] at hsame
  rw [← hsame] at hE
  obtain ⟨b', rfl, hb⟩ := C86_unpad_partial hs hX' hu' ha' ho' hroom' hE
  rw [hgot, hb]

/-- **C86**, CTR: the data accepted, combined with the encryptions of the counter blocks. -/
theorem C86_ctr (hs : Stateless M CKM_AES_CTR) (hk : k = .enc ∨ k = .dec) (hX : Crypts (withAes M L mem) C O d tr e h i k CKM_AES_CTR q key v tr2 X) (hu : byParts X) :
    counted (L v).enc (q.drop 8) (gave X) (got X) := by
  obtain ⟨p, o, hp, ho, hr⟩ := C86_calls hs (mm := .ctr) rfl hk hX
  unfold aesParamOf at hp
  simp only at hp
  split at hp
  · cases hp
  injection hp with hp; subst hp
  have := C54_stream (L v) _ _ _ o ho _ hu
  rw [← hr] at this
  exact this

/-- **C86**, GCM by parts: ciphertext and tag of the data accepted. -/
theorem C86_gcm {iv aad : Bytes} {tb : Nat} (hs : Stateless M CKM_AES_GCM) (hq : mem q = .gcm iv aad tb)
    (hX : Crypts (withAes M L mem) C O d tr e h i .enc CKM_AES_GCM q key v tr2 (Y ++ [(.final (some room), r)])) (hu : byParts Y) (ha : attempted (Y.map (·.1))) :
    (∀ p ∈ Y, p.2 = .error .bufferTooSmall ∨ ∃ a, p.2 = .ok a) ∧
      ((room < (tb + 7) / 8 ∧ r = .error .bufferTooSmall) ∨ ∃ b, r = .ok (.data b) ∧ got Y ++ b = gcmSealed (L v) iv aad tb (gave Y)) := by
  obtain ⟨p, o, hp, ho, hr⟩ := C86_calls hs (mm := .gcm) rfl (.inl rfl) hX
  obtain ⟨y1, y2⟩ := last_call hr
  injection hp with hp; rw [hq] at hp; subst hp
  obtain ⟨a1, a2⟩ := C57_encrypt (L v) iv aad tb o ho _ hu ha room
  rw [← y1] at a1 a2
  refine ⟨fun x hx => a1 x.2 (List.mem_map_of_mem hx), ?_⟩
  rcases a2 with ⟨h1, h2⟩ | ⟨b, h1, h2⟩
  · exact .inl ⟨h1, y2.trans h2⟩
  · exact .inr ⟨b, y2.trans h1, h2⟩

/-- **C86**, GCM in one call: C_Decrypt gives the data exactly for its ciphertext and tag. -/
theorem C86_gcm_open {iv aad c t : Bytes} {tb : Nat} (hs : Stateless M CKM_AES_GCM) (hq : mem q = .gcm iv aad tb)
    (hX : Crypts (withAes M L mem) C O d tr e h i .dec CKM_AES_GCM q key v tr2 [(.oneShot c (some room), r)]) (hr : c.length ≤ room) :
    r = .ok (.data t) ↔ c = gcmSealed (L v) iv aad tb t := by
  obtain ⟨p, o, hp, ho, hx⟩ := C86_calls hs (mm := .gcm) rfl (.inr rfl) hX
  injection hp with hp; rw [hq] at hp; subst hp
  have := C57_decrypt_oneshot (L v) iv aad tb o ho c t room hr
  have e : r = (aesCall (L v) o (.oneShot c (some room))).1 := by injection hx
  rw [e]; exact this

/-- **C86**, CCM in one call: ciphertext and tag of the data. -/
theorem C86_ccm {nonce aad t : Bytes} {ml : Nat} (hs : Stateless M CKM_AES_CCM) (hq : mem q = .ccm nonce aad ml t.length)
    (hX : Crypts (withAes M L mem) C O d tr e h i .enc CKM_AES_CCM q key v tr2 [(.oneShot t (some room), r)]) (hr : t.length + ml ≤ room) :
    r = .ok (.data (ccmSealed (L v) nonce aad ml t)) := by
  obtain ⟨p, o, hp, ho, hx⟩ := C86_calls hs (mm := .ccm) rfl (.inl rfl) hX
  injection hp with hp; rw [hq] at hp; subst hp
  have := C58_encrypt_oneshot (L v) nonce aad ml t.length o ho t rfl room hr
  have e : r = (aesCall (L v) o (.oneShot t (some room))).1 := by injection hx
  rw [e]; exact this

/-- **C86**, CCM in one call: C_Decrypt of anything but nothing gives the data exactly for its ciphertext and tag (nothing: `C58_empty_violation`). -/
theorem C86_ccm_open_partial {nonce aad c t : Bytes} {ml n : Nat} (hs : Stateless M CKM_AES_CCM) (hq : mem q = .ccm nonce aad ml n)
    (hX : Crypts (withAes M L mem) C O d tr e h i .dec CKM_AES_CCM q key v tr2 [(.oneShot c (some room), r)]) (hne : c ≠ []) (hr : n ≤ room) :
    r = .ok (.data t) ↔ c = ccmSealed (L v) nonce aad ml t ∧ t.length = n := by
  obtain ⟨p, o, hp, ho, hx⟩ := C86_calls hs (mm := .ccm) rfl (.inr rfl) hX
  injection hp with hp; rw [hq] at hp; subst hp
  have := C58_decrypt_oneshot_partial (L v) nonce aad ml n o ho c t hne room hr
  have e : r = (aesCall (L v) o (.oneShot c (some room))).1 := by injection hx
  rw [e]; exact this

/-! ## A case -/

theorem exMechs_stateless (m : Nat) : Stateless exMechs m where
  new := by intro e k q key sig op h; injection h with h; subst h; rfl
  run := by
    intro e k a op i hm hu
    show (match k, a with
      | _, .update | _, .next => _
      | .msgEnc, _ | .msgDec, _ => _
      | _, _ => _ : Res Bytes × Op).2.upd = none
    split <;> rfl
  len := by intro k a op n hm hu; exact hu

abbrev exAesM : Mechs := withAes exMechs (fun _ => exAesLib) (fun q => if q = [1] then exGcm else exCcm)

/-- An AES key (11) and two sessions. -/
def exAesStart : Trace :=
  [(exEnv 0, .initialize [(7, ⟨[CKM_AES_CBC_PAD, CKM_AES_ECB, CKM_AES_CTR, CKM_AES_GCM, CKM_AES_CCM], none, none⟩)]), (exEnv 1, .initToken 7 exSoPin none),
   (exEnv 2, .openSession 7 (CKF_RW_SESSION ||| CKF_SERIAL_SESSION)),
   (exEnv 3, .login 1 CKU_SO exSoPin), (exEnv 4, .sess 1 (.initPin exPin)), (exEnv 5, .logout 1), (exEnv 6, .login 1 CKU_USER exPin),
   (exEnv 7, .sess 1 (.createObject [.ofUlong CKA_CLASS CKO_SECRET_KEY, .ofUlong CKA_KEY_TYPE CKK_AES,
     .mk' CKA_VALUE exIv, .ofBool CKA_ENCRYPT true, .ofBool CKA_DECRYPT true])),
   (exEnv 8, .openSession 7 (CKF_RW_SESSION ||| CKF_SERIAL_SESSION))]

/-- A call with data and a buffer. -/
def exCIn (d : Bytes) (room : Option Nat) : OpIn := { (default : OpIn) with data := d, out := room }

/-- Encryption of 27 bytes in two parts, with an encryption on the other session, a search, a query and a short buffer in between. -/
def exAesTr : Trace :=
  [(exEnv 10, .op 1 (.opRun .enc .update (exCIn (List.replicate 20 9) (some 100)))),
   (exEnv 11, .op 2 (.opInit .enc (some (CKM_AES_ECB, [])) 11 [])),
   (exEnv 12, .op 2 (.opRun .enc .update (exCIn (List.replicate 30 5) (some 100)))),
   (exEnv 13, .sess 1 (.findInit [])),
   (exEnv 14, .op 1 (.opRun .enc .update (exCIn (List.replicate 30 9) none))),
   (exEnv 15, .op 1 (.opRun .enc .update (exCIn (List.replicate 30 9) (some 10)))),
   (exEnv 16, .op 1 (.opRun .enc .update (exCIn (List.replicate 7 4) (some 0)))),
   (exEnv 17, .op 1 (.opRun .enc .final (exCIn [] (some 16))))]

/-- The exchange before C_EncryptFinal. -/
def exAesY : List (AesCall × Res AesOut) :=
  [(.update (List.replicate 20 9) (some 100), .ok (.data (exBlockFn (xorBytes (List.replicate 16 9) exIv)))), (.update (List.replicate 30 9) none, .ok (.len 32)),
   (.update (List.replicate 30 9) (some 10), .error .bufferTooSmall), (.update (List.replicate 7 4) (some 0), .ok (.data []))]

/-- The last block. -/
def exAesB : Bytes := exBlockFn (xorBytes (List.replicate 4 9 ++ List.replicate 7 4 ++ List.replicate 5 5) (exBlockFn (xorBytes (List.replicate 16 9) exIv)))

abbrev exAesSt : St := after exAesM exCrypto exOracle [] exAesStart
def exAesObj : Obj := (readAt exCrypto exAesSt 7 11).getD (Obj.new 0)

theorem exAes_quiet : ∀ p ∈ exAesTr, meddles 1 .enc p.2 = false := by
  have : exAesTr.all (fun p => meddles 1 .enc p.2 == false) = true := by decide +kernel
  intro p hp
  exact eq_of_beq (List.all_eq_true.1 this p hp)

set_option maxRecDepth 20000 in
theorem exAes_crypts : Crypts exAesM exCrypto exOracle [] exAesStart (exEnv 9) 1 7 .enc CKM_AES_CBC_PAD exIv 11 exIv exAesTr
    (exAesY ++ [(.final (some 16), .ok (.data exAesB))]) where
  there := ⟨exEnv 0, .rwUser, CKF_RW_SESSION ||| CKF_SERIAL_SESSION, by decide +kernel⟩
  value := seen_read (o := exAesObj) (by decide +kernel) (by decide +kernel)
  calm := nofun
  started := by decide +kernel
  quiet := exAes_quiet
  same := noOpen_of (by decide +kernel)
  still := ⟨7, exEnv 0, .rwUser, CKF_RW_SESSION ||| CKF_SERIAL_SESSION, by decide +kernel⟩
  exchange := by decide +kernel

/-- What was written. -/
def exAesText : Bytes := got (exAesY ++ [(.final (some 16), .ok (.data exAesB))])

/-- Later, on the other session: decryption in parts of 17 and 15 bytes; the key is used for an encryption on the first session meanwhile. -/
def exAesTr' : Trace :=
  [(exEnv 20, .op 2 (.opRun .dec .update (exCIn (exAesText.take 17) (some 100)))),
   (exEnv 21, .op 1 (.opInit .enc (some (CKM_AES_CBC_PAD, exIv)) 11 [])),
   (exEnv 22, .op 1 (.opRun .enc .oneShot (exCIn [1, 2, 3] (some 100)))),
   (exEnv 23, .op 2 (.opRun .dec .update (exCIn (exAesText.drop 17) (some 100)))),
   (exEnv 24, .op 2 (.opRun .dec .final (exCIn [] (some 16))))]

abbrev exAesTr1 : Trace := exAesStart ++ (exEnv 9, .op 1 (.opInit .enc (some (CKM_AES_CBC_PAD, exIv)) 11 [])) :: exAesTr
abbrev exAesSt' : St := after exAesM exCrypto exOracle [] exAesTr1

/-- The exchange of the decryption. -/
def exAesY' : List (AesCall × Res AesOut) :=
  [(.update (exAesText.take 17) (some 100), .ok (.data [])), (.update (exAesText.drop 17) (some 100), .ok (.data (List.replicate 16 9)))]

def exAesObj' : Obj := (readAt exCrypto exAesSt' 7 11).getD (Obj.new 0)

theorem exAes_quiet' : ∀ p ∈ exAesTr', meddles 2 .dec p.2 = false := by
  have : exAesTr'.all (fun p => meddles 2 .dec p.2 == false) = true := by decide +kernel
  intro p hp
  exact eq_of_beq (List.all_eq_true.1 this p hp)

set_option maxRecDepth 20000 in
theorem exAes_crypts' : Crypts exAesM exCrypto exOracle [] exAesTr1 (exEnv 19) 2 7 .dec CKM_AES_CBC_PAD exIv 11 exIv exAesTr'
    (exAesY' ++ [(.final (some 16), .ok (.data (List.replicate 4 9 ++ List.replicate 7 4)))]) where
  there := ⟨exEnv 0, .rwUser, CKF_RW_SESSION ||| CKF_SERIAL_SESSION, by decide +kernel⟩
  value := seen_read (o := exAesObj') (by decide +kernel) (by decide +kernel)
  calm := fun _ => seen_read (o := exAesObj') (by decide +kernel) (by decide +kernel)
  started := by decide +kernel
  quiet := exAes_quiet'
  same := noOpen_of (by decide +kernel)
  still := ⟨7, exEnv 0, .rwUser, CKF_RW_SESSION ||| CKF_SERIAL_SESSION, by decide +kernel⟩
  exchange := by decide +kernel

theorem exAes_parts : byParts exAesY ∧ attempted (exAesY.map (·.1)) ∧ byParts exAesY' ∧ attempted (exAesY'.map (·.1)) := by
  refine ⟨?_, ⟨_, _, List.mem_cons_self⟩, ?_, ⟨_, _, List.mem_cons_self⟩⟩
  · intro c hc
    simp only [exAesY, List.map_cons, List.map_nil, List.mem_cons, List.mem_nil_iff, or_false] at hc
    rcases hc with h | h | h | h <;> exact ⟨_, _, h⟩
  · intro c hc
    simp only [exAesY', List.map_cons, List.map_nil, List.mem_cons, List.mem_nil_iff, or_false] at hc
    rcases hc with h | h <;> exact ⟨_, _, h⟩

/-- `C86_roundtrip_partial` applies: the 27 bytes come back. -/
example : got (exAesY' ++ [(.final (some 16), .ok (.data (List.replicate 4 9 ++ List.replicate 7 4)))]) = gave exAesY ∧ (gave exAesY).length = 27 :=
  ⟨C86_roundtrip_partial (exMechs_stateless _) exAes_crypts exAes_parts.1 exAes_parts.2.1 (by decide) exAes_crypts' exAes_parts.2.2.1 exAes_parts.2.2.2
    (by decide +kernel) (by decide) (by decide +kernel), by decide +kernel⟩

/-- A short exchange on session 1, with a search in between. -/
def exShort (k : OpKind) (a : Act) (b : OpIn) : Trace := [(exEnv 30, .sess 1 (.findInit [])), (exEnv 31, .op 1 (.opRun k a b)), (exEnv 32, .sess 1 .findFinal)]

/-- The state after the start of the operation. -/
abbrev exShortSt (k : OpKind) (m : Nat) (q : Bytes) : St := (step exAesM exCrypto exOracle (exEnv 29) exAesSt (.op 1 (.opInit k (some (m, q)) 11 []))).2

set_option maxRecDepth 20000 in
theorem exShort_crypts {k : OpKind} {a : Act} {b : OpIn} {m : Nat} {q : Bytes} {X : List (AesCall × Res AesOut)}
    (h1 : (step exAesM exCrypto exOracle (exEnv 29) exAesSt (.op 1 (.opInit k (some (m, q)) 11 []))).1 = .ok)
    (h2 : X = crypted 1 k (hist exAesM exCrypto exOracle (exShortSt k m q) (exShort k a b)))
    (h3 : ∃ j, onSlot exAesM exCrypto exOracle (run exAesM exCrypto exOracle (exShortSt k m q) (exShort k a b)) 1 j) :
    Crypts exAesM exCrypto exOracle [] exAesStart (exEnv 29) 1 7 k m q 11 exIv (exShort k a b) X where
  there := ⟨exEnv 0, .rwUser, CKF_RW_SESSION ||| CKF_SERIAL_SESSION, by decide +kernel⟩
  value := seen_read (o := exAesObj) (by decide +kernel) (by decide +kernel)
  calm := fun _ => seen_read (o := exAesObj) (by decide +kernel) (by decide +kernel)
  started := h1
  quiet := by
    intro p hp
    simp only [exShort, List.mem_cons, List.mem_nil_iff, or_false] at hp
    rcases hp with rfl | rfl | rfl <;> simp [meddles]
  same := noOpen_of rfl
  still := h3
  exchange := h2

/-- CTR with a counter of 32 bits. -/
def exCtrQ : Bytes := ulongBytes 32 ++ exIv

set_option maxRecDepth 20000 in
/-- `C86_ctr` applies to 20 bytes. -/
example : ∃ b, counted exAesLib.enc exIv (List.replicate 20 7) b ∧
    Crypts exAesM exCrypto exOracle [] exAesStart (exEnv 29) 1 7 .dec CKM_AES_CTR exCtrQ 11 exIv (exShort .dec .update (exCIn (List.replicate 20 7) (some 20)))
      [(.update (List.replicate 20 7) (some 20), .ok (.data b))] := by
  have hX : Crypts exAesM exCrypto exOracle [] exAesStart (exEnv 29) 1 7 .dec CKM_AES_CTR exCtrQ 11 exIv (exShort .dec .update (exCIn (List.replicate 20 7) (some 20)))
      [(.update (List.replicate 20 7) (some 20), .ok (.data (xorBytes (List.replicate 20 7) (exAesLib.enc exIv ++ (exAesLib.enc (toBE 16 (fromBE exIv + 1))).take 4))))] :=
    exShort_crypts (by decide +kernel) (by decide +kernel) ⟨7, exEnv 0, .rwUser, CKF_RW_SESSION ||| CKF_SERIAL_SESSION, by decide +kernel⟩
  have := C86_ctr (exMechs_stateless _) (.inr rfl) hX (by
    intro c hc
    simp only [List.map_cons, List.map_nil, List.mem_cons, List.mem_nil_iff, or_false] at hc
    exact ⟨_, _, hc⟩)
  refine ⟨_, ?_, hX⟩
  have e1 : exCtrQ.drop 8 = exIv := by decide +kernel
  rw [e1] at this
  simpa [gave, got, taken, written] using this

set_option maxRecDepth 20000 in
/-- `C86_gcm_open` applies to 40 bytes. -/
example : exGcmText = gcmSealed exAesLib [1, 2, 3, 4, 5, 6, 7, 8, 9, 10, 11, 12] [7, 7] 96 (List.replicate 40 0x41) :=
  (C86_gcm_open (exMechs_stateless _) (by rfl)
    (exShort_crypts (k := .dec) (a := .oneShot) (b := exCIn exGcmText (some 52)) (m := CKM_AES_GCM) (q := [1]) (X := [(.oneShot exGcmText (some 52), .ok (.data (List.replicate 40 0x41)))])
      (by decide +kernel) (by decide +kernel) ⟨7, exEnv 0, .rwUser, CKF_RW_SESSION ||| CKF_SERIAL_SESSION, by decide +kernel⟩) (by decide +kernel)).1 rfl

set_option maxRecDepth 20000 in
/-- `C86_ccm` applies to 20 bytes. -/
example : Crypts exAesM exCrypto exOracle [] exAesStart (exEnv 29) 1 7 .enc CKM_AES_CCM [2] 11 exIv (exShort .enc .oneShot (exCIn (List.replicate 20 0x41) (some 28)))
    [(.oneShot (List.replicate 20 0x41) (some 28), .ok (.data exCcmText))] :=
  exShort_crypts (by decide +kernel) (by decide +kernel) ⟨7, exEnv 0, .rwUser, CKF_RW_SESSION ||| CKF_SERIAL_SESSION, by decide +kernel⟩

end Kry

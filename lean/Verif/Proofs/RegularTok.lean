import Verif.Proofs.Regular
import Verif.Proofs.StoreFetch
import Verif.Proofs.StickyDisk

/-!
# Objects in memory are regular

Every call keeps them so, provided no class is set or copied over, and the mechanisms make regular objects.
-/

namespace Kry
open Spec

/-- All objects in memory are regular. -/
def AllRegular (t : Token) : Prop := ∀ n o, AMap.get t.sess n = some o → Regular o

section
variable {C : Crypto}

theorem AllRegular.sub {a b : Token} (h : AllRegular a)
    (hs : ∀ n o, AMap.get b.sess n = some o → AMap.get a.sess n = some o) : AllRegular b :=
  fun n o ho => h n o (hs n o ho)

theorem AllRegular.eq {a b : Token} (h : AllRegular a) (hs : b.sess = a.sess) : AllRegular b :=
  h.sub fun n o ho => by rw [← hs]; exact ho

theorem regular_insert {a : Token} (e : Env) (k : Nat) {o : Obj} (ho : Regular o) (h : AllRegular a) :
    AllRegular (a.insertObject C e k o).2 := by
  unfold Token.insertObject
  split
  · split <;> exact h.eq rfl
  · simp only
    split
    · exact h.eq rfl
    · split
      · exact h.eq rfl
      · intro n o' hn
        simp only [AMap.get_insert] at hn
        split at hn
        · injection hn with hn
          rw [← hn]
          exact ⟨ho.form, ho.once, ho.cls, ho.has, ho.lt⟩
        · exact h n o' hn

theorem regular_builtins {e : Env} {t : Token} {cls ty : Nat} {l : List Nat} {n : Nat} (h : AllRegular t) :
    AllRegular (t.insertBuiltins C e cls ty l n).2 := by
  have one : ∀ (e : Env) (t : Token) (id : Nat), AllRegular t → AllRegular (t.insertBuiltin C e cls ty id).2 := by
    intro e t id h
    unfold Token.insertBuiltin
    split
    · exact h
    · rename_i F hF
      split
      · exact h
      · rename_i o ho
        have hz : Regular o := by
          unfold builtinCreate at ho
          split at ho
          · cases ho
          · injection ho with ho
            rw [← ho]
            exact regular_generateUnique (regular_internal (getFactory_mem hF) (by assumption))
        have a := regular_insert (C := C) e 0 hz h
        generalize t.insertObject C e 0 o = p at a ⊢
        obtain ⟨r, t1⟩ := p
        cases r <;> exact a
  induction l generalizing t n with
  | nil => exact h
  | cons id l ih =>
    unfold Token.insertBuiltins
    have a := one (e.sub n) t id h
    generalize t.insertBuiltin C (e.sub n) cls ty id = p at a ⊢
    obtain ⟨r, t1⟩ := p
    cases r with
    | error r => exact a
    | ok _ => exact ih a

theorem regular_internalInit {e : Env} {t : Token} (h : AllRegular t) : AllRegular (t.internalInit C e).2 := by
  unfold Token.internalInit
  have a := regular_builtins (C := C) (e := e.sub 0) (cls := CKO_PROFILE) (ty := CKA_PROFILE_ID) (l := Token.profiles) (n := 0) h
  generalize t.insertBuiltins C (e.sub 0) CKO_PROFILE CKA_PROFILE_ID Token.profiles 0 = p at a ⊢
  obtain ⟨r, t1⟩ := p
  cases r with
  | error r => exact a
  | ok _ => exact regular_builtins a

theorem regular_token {e : Env} {db : Db} {cfg : TokCfg} {t : Token} (h : Token.new C e db cfg = .ok t) : AllRegular t := by
  have hn : ∀ t : Token, t.sess = [] → AllRegular t := fun t ht n o ho => by rw [ht] at ho; cases ho
  unfold Token.new at h
  extract_lets src t0 tf sf t' at h
  have h0 : t0.sess = [] := rfl
  clear_value t0
  have h1 : ∀ t1, t' = .ok t1 → t1.sess = [] := by
    intro t1 h1
    simp only [t', tf, sf] at h1
    repeat' split at h1
    all_goals first | (cases h1; done) | (injection h1 with h1; rw [← h1]; exact h0)
  clear_value t'
  cases t' with
  | error r => cases h
  | ok t0 =>
    have a := regular_internalInit (C := C) (e := e.sub 1) (hn t0 (h1 t0 rfl))
    simp only at h
    generalize t0.internalInit C (e.sub 1) = p at a h
    obtain ⟨r, t1⟩ := p
    cases r with
    | error r => cases h
    | ok _ => injection h with h; rw [← h]; exact a

theorem regular_initToken {e : Env} {t : Token} {pin label : Bytes} (h : AllRegular t) :
    AllRegular (t.initToken C e pin label).2 := by
  have hn : ∀ t : Token, t.sess = [] → AllRegular t := fun t ht n o ho => by rw [ht] at ho; cases ho
  unfold Token.initToken
  have a : (if t.isInitialized then t.authUser C (e.sub 0) .so pin true else (.ok (), t)).2.sess = t.sess := by
    split
    · exact (authUser_hs _ _ _ _ _).1
    · rfl
  generalize (if t.isInitialized then t.authUser C (e.sub 0) .so pin true else (.ok (), t)) = p at a ⊢
  obtain ⟨r, t1⟩ := p
  cases r with
  | error r => exact h.eq a
  | ok _ =>
    simp only
    generalize t1.store.reinit C (e.sub 1) = q
    obtain ⟨r, st⟩ := q
    cases r with
    | error r => exact hn _ rfl
    | ok info =>
      simp only
      have b := (setPin_hs (C := C) (e.sub 2)
        { info := t1.info, handles := Handles.new, store := st, sess := [], logged := none, cfg := t1.cfg }
        (some User.so) pin []).1
      generalize Token.setPin C (e.sub 2) _ (some User.so) pin [] = w at b ⊢
      obtain ⟨r, t2⟩ := w
      have z2 : t2.sess = [] := b
      simp only
      split
      · exact hn _ z2
      · split
        · exact hn _ z2
        · split
          · exact hn _ z2
          · exact regular_internalInit (hn _ z2)

theorem regular_act {k : Nat} {D : Nat → Prop} {N : Obj → Prop} {a b : Token} (hN : ∀ o, N o → Regular o)
    (hW : ∀ n tm, Z.wr n tm → ∀ c ∈ tm, c.typ ≠ CKA_CLASS) (x : TAct C Z k D N a b) (h : AllRegular a) : AllRegular b := by
  cases x with
  | insert e o t hz hn => exact regular_insert e k (hN o hn) h
  | destroy e n t hd =>
    refine h.sub fun m o ho => ?_
    unfold Token.destroyObject at ho
    repeat' split at ho
    all_goals first
      | exact ho
      | (simp only [AMap.get_erase] at ho
         split at ho
         · cases ho
         · exact ho)
  | setAttrs e n tm t hw =>
    unfold Token.setObjectAttrs
    split
    · rename_i o ho
      split
      · exact h
      · rename_i F hF
        intro m o' hm
        simp only [AMap.get_modify] at hm
        split at hm
        · rename_i e
          rw [← e, ho] at hm
          injection hm with hm
          rw [← hm]
          have := h n o ho
          unfold setObjectAttributes
          repeat' split
          all_goals first | exact this | exact regular_applyTemplate (hW n tm hw) this
        · exact h m o' hm
    · repeat' split
      all_goals exact h.eq rfl
  | search e tm t => exact h.eq rfl
  | update e n tm t hl hu hdd => exact h.eq rfl
  | initPin e pin t =>
    unfold fnInitPin
    split
    · exact h
    · exact h.eq (setPin_hs _ _ _ _ _).1
  | changePin e s old new t hp hd =>
    refine h.sub fun m o ho => ?_
    unfold fnSetPin at ho
    split at ho
    · exact ho
    split at ho
    · exact ho
    split at ho
    · exact ho
    split at ho
    · rw [(setPin_hs _ _ _ _ _).1] at ho; exact ho
    · have a' := (login_hs (C := C) (e.sub 0) a CKU_USER old).1
      generalize a.login C (e.sub 0) CKU_USER old = p at a' ho
      obtain ⟨r, t1⟩ := p
      cases r with
      | error r => simp only at ho a'; rw [a'] at ho; exact ho
      | ok _ =>
        simp only at ho a'
        have c := (setPin_hs (C := C) (e.sub 1) t1 none new old).1
        generalize t1.setPin C (e.sub 1) none new old = q at c ho
        obtain ⟨r, t2⟩ := q
        simp only at c ho
        have := logout_sub _ _ _ _ ho
        rw [c, a'] at this
        exact this

theorem regular_prim {k : Nat} {D : Nat → Prop} {N : Obj → Prop} {I : Prop} {a b : Token} (hN : ∀ o, N o → Regular o)
    (hW : ∀ n tm, W n tm → ∀ c ∈ tm, c.typ ≠ CKA_CLASS) (x : TPrim C k D N I W a b) (h : AllRegular a) : AllRegular b := by
  cases x with
  | act x => exact regular_act (Z := ⟨True, W, True⟩) hN hW x h
  | login e ut pin => exact h.eq (login_hs _ _ _ _).1
  | logout e t hd => exact h.sub fun n o ho => logout_sub _ _ _ _ ho
  | drop s t hd => exact h.sub fun n o ho => drop_sub _ _ _ _ ho
  | initTok e pin l t hi => exact regular_initToken h

/-! ## The machine -/

variable {M : Mechs} {O : Oracle}

/-- A list of attributes to set that has no type twice and does not touch what says which kind of object it is. -/
def Spec.plainSet (tm : Template) : Prop :=
  (tm.map CkAttr.typ).Nodup ∧ ∀ a ∈ tm, a.typ ∉ [CKA_CLASS, CKA_KEY_TYPE, CKA_CERTIFICATE_TYPE]

/-- The call sets attributes in that way, and copies no object into another class. -/
def Spec.plainCall : Call → Prop
  | .sess _ (.setAttr _ tm) => plainSet tm
  | .sess _ (.copyObject _ tm) => ∀ a ∈ tm, a.typ ≠ CKA_CLASS
  | _ => True

/-- So do the mechanisms that keep a counter in the key. -/
def Spec.plainMechs (M : Mechs) : Prop := ∀ e k a op i n tm, (M.run e k a op i).2.upd = some (n, tm) → plainSet tm

theorem setBy_plain {c : Call} {n : Nat} {tm : Template} (hM : plainMechs M) (hc : plainCall c) (h : SetBy M c n tm) : plainSet tm := by
  rcases h with ⟨h, rfl⟩ | ⟨_, _, _, e, k, a, op, i, hu⟩
  · exact hc
  · exact hM e k a op i n tm hu

theorem regular_made (hM : RegularMechs M O) {e : Env} {sl : Slot} {c : Call} {o : Obj} (ht : TblOk sl.token.store.db.objs)
    (hp : plainCall c) (h : AllRegular sl.token) (m : MadeBy M C O e sl c o) : Regular o := by
  cases m with
  | sess hx m =>
    cases m with
    | create p hr ho => exact regular_create hM ho
    | copy e' p hr hs ho =>
      refine regular_copy hp ho ?_
      rcases hs with hs | hs
      · exact h _ _ hs
      · exact regular_fetch ht hs
  | op hx m =>
    cases m with
    | genKey e' hr ho => exact regular_fresh (hM.genKey _ _ _ _ _ ho)
    | genPub e' hr' hr ho => exact regular_fresh (hM.genPair _ _ _ _ _ _ _ ho).1
    | genPriv e' hr' hr ho => exact regular_fresh (hM.genPair _ _ _ _ _ _ _ ho).2
    | derive e' hr ho hm => exact regular_fresh (hM.derive _ _ _ _ _ _ _ ho _ hm)
    | unwrap p hr hF ho =>
      obtain ⟨k, hF⟩ := keyTemplateFactory_mem hF
      exact regular_fresh (regular_import hM hF ho)
    | encap p hr hF ho =>
      obtain ⟨k, hF⟩ := keyTemplateFactory_mem hF
      exact regular_fresh (regular_import hM hF ho)
    | decap p hr hF ho =>
      obtain ⟨k, hF⟩ := keyTemplateFactory_mem hF
      exact regular_fresh (regular_import hM hF ho)

/-- All objects in memory, of all slots. -/
def RInv (s : St) : Prop := ∀ i sl, AMap.get s.slots i = some sl → AllRegular sl.token

theorem rinv_step (hM : RegularMechs M O) (hP : plainMechs M) (e : Env) (s : St) (c : Call) (hp : plainCall c) (hi : Inv s) (ht : TInv s) (ho : RInv s) :
    RInv (step M C O e s c).2 := by
  intro i sl' hs'
  have fin : ∀ {d}, AMap.get (St.mk [] [] 0 d).slots i ≠ some sl' := fun h => by cases h
  by_cases h1 : c = .finalize
  · subst h1
    simp only [step, fnFinalize] at hs'
    split at hs'
    · exact ho i sl' hs'
    · exact absurd hs' fin
  by_cases h2 : c = .crash
  · subst h2; exact absurd hs' fin
  cases hs : AMap.get s.slots i with
  | some sl =>
    obtain ⟨sl2, hs2, p⟩ := step_path (M := M) (O := O) (e := e) hi hs h1 h2
    rw [hs2] at hs'; injection hs' with hs'; subst hs'
    exact TPath.inv (fun _ _ x h => regular_prim (fun o m => regular_made hM (ht.slots i sl hs) hp (ho i sl hs) m) (fun n tm hw c hc e => (setBy_plain hP hp hw).2 c hc (by rw [e]; exact List.mem_cons_self ..)) x h) p (ho i sl hs)
  | none =>
    obtain ⟨e', cfg, conf, _, _, _, hnew⟩ := step_new hs hs'
    exact regular_token hnew

theorem rinv_init (d : List (Nat × Db)) : RInv (St.init d) := fun i sl hs => by cases hs

end

end Kry

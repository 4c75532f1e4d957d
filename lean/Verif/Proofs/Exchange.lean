import Verif.Props.C86

/-!
# The calls of one operation and their answers

`Spec.Went` says what a user of one operation sees; `went_sim` that this is what the operation does by itself, for any description `g` of it.
-/

namespace Kry
namespace Spec

/-- The calls of operation `k` of session `h` with their answers, in order. -/
def exchanged (h : Nat) (k : OpKind) (l : List (Call × Out)) : List ((Act × OpIn) × Out) :=
  l.filterMap fun p => match p.1 with
    | .op h' (.opRun k' a b) => if h' = h ∧ k' = k then some ((a, b), p.2) else none
    | _ => none

/-- After `tr`, session `h` on slot `i` starts operation `k` with mechanism `m`, parameter `q`, a key for which `V` holds and whose use needs no login of its own, and for
C_VerifySignatureInit the signature `sig`; the start succeeds.  Then the calls of `tr2` are made, by anyone, none of which is by its meaning about this operation or a start that
may ask for a login (`meddles`), and the session is still open.  `X` are the calls of the operation and the answers. -/
structure Went (M : Mechs) (C : Crypto) (O : Oracle) (d : List (Nat × Db)) (tr : Trace) (e : Env) (h i : Nat) (k : OpKind) (m : Nat) (q : Bytes) (key : Nat) (sig : Bytes)
    (V : Obj → Prop) (tr2 : Trace) (X : List ((Act × OpIn) × Out)) : Prop where
  there : onSlot M C O (after M C O d tr) h i
  value : Seen C (after M C O d tr) i key V
  calm : k = .sign ∨ k = .dec → Seen C (after M C O d tr) i key fun o => o.getBool CKA_ALWAYS_AUTHENTICATE ≠ .ok true
  started : (step M C O e (after M C O d tr) (.op h (.opInit k (some (m, q)) key sig))).1 = .ok
  quiet : ∀ p ∈ tr2, meddles h k p.2 = false
  same : ∀ p ∈ hist M C O (step M C O e (after M C O d tr) (.op h (.opInit k (some (m, q)) key sig))).2 tr2, ∀ j f, p.1 = .openSession j f → p.2 ≠ .handle h
  still : ∃ j, onSlot M C O (run M C O (step M C O e (after M C O d tr) (.op h (.opInit k (some (m, q)) key sig))).2 tr2) h j
  exchange : X = exchanged h k (hist M C O (step M C O e (after M C O d tr) (.op h (.opInit k (some (m, q)) key sig))).2 tr2)

end Spec

open Spec

variable {M : Mechs} {C : Crypto} {O : Oracle} {k : OpKind} {m : Nat}

/-- The answers of a description of an operation, and where it gets. -/
def describe {σ : Type} (g : σ → Act → OpIn → Out × σ) : σ → List (Act × OpIn) → List Out × σ
  | s, [] => ([], s)
  | s, (a, b) :: l => ((g s a b).1 :: (describe g (g s a b).2 l).1, (describe g (g s a b).2 l).2)

theorem exchanged_other {h : Nat} {c : Call} {r : Out} {l : List (Call × Out)} (hc : own h k c = false) : exchanged h k ((c, r) :: l) = exchanged h k l := by
  unfold exchanged
  rw [List.filterMap_cons_none]
  simp only
  split
  · rw [if_neg]
    rintro ⟨rfl, rfl⟩
    simp [own] at hc
  · rfl

theorem exchanged_own {h : Nat} {a : Act} {b : OpIn} {r : Out} {l : List (Call × Out)} :
    exchanged h k ((.op h (.opRun k a b), r) :: l) = ((a, b), r) :: exchanged h k l := by
  unfold exchanged
  rw [List.filterMap_cons_some]
  simp only [and_self, if_true]

/-- The exchange of the operation in the machine is that of its description. -/
theorem exchanged_run {σ : Type} {R : σ → Op → Prop} {g : σ → Act → OpIn → Out × σ} {h j : Nat} (hs : Stateless M m) (hk : manyMessages k = false)
    (hR : ∀ s v, R s v → Plainly m v)
    (hg : ∀ e a b s v, R s v → (solo M e k a b v).1 = (g s a b).1 ∧ R (g s a b).2 (solo M e k a b v).2)
    (tr : Trace) {s : St} {x : σ} {v : Op} (hi : Inv s) (hx : R x v) (hb : Having h k v s) (h1 : ∀ p ∈ tr, meddles h k p.2 = false)
    (h2 : ∀ p ∈ hist M C O s tr, ∀ j f, p.1 = .openSession j f → p.2 ≠ .handle h) (hl : AMap.get (run M C O s tr).smap h = some j) :
    (exchanged h k (hist M C O s tr)).map (·.2) = (describe g x ((exchanged h k (hist M C O s tr)).map (·.1))).1 := by
  induction tr generalizing s x v with
  | nil => rfl
  | cons p tr ih =>
    obtain ⟨e, c⟩ := p
    have i1 := inv_step M (C := C) O e s c hi
    have t1 : ∀ p ∈ tr, meddles h k p.2 = false := fun p hp => h1 p (List.mem_cons_of_mem _ hp)
    have t3 : ∀ p ∈ hist M C O (step M C O e s c).2 tr, ∀ j f, p.1 = .openSession j f → p.2 ≠ .handle h :=
      fun p hp => h2 p (List.mem_cons_of_mem _ hp)
    show (exchanged h k ((c, (step M C O e s c).1) :: hist M C O (step M C O e s c).2 tr)).map (·.2) =
      (describe g x ((exchanged h k ((c, (step M C O e s c).1) :: hist M C O (step M C O e s c).2 tr)).map (·.1))).1
    cases hc : own h k c with
    | false =>
      rw [exchanged_other hc]
      exact ih i1 hx (having_step hi hb (h1 _ List.mem_cons_self) hc (h2 _ List.mem_cons_self)) t1 t3 hl
    | true =>
      obtain ⟨a, b, rfl⟩ := own_iff.1 hc
      have hal : AMap.get s.smap h = some j := there_run ((e, .op h (.opRun k a b)) :: tr) hi h2 hl
      have ans := own_answer (C := C) (O := O) hs (hR x v hx) hk hi hb hal e a b
      have hav := having_own (C := C) (O := O) (e := e) (a := a) (b := b) hs (hR x v hx) hk hi hb
      obtain ⟨g1, g2⟩ := hg e a b x v hx
      rw [exchanged_own]
      show (step M C O e s (.op h (.opRun k a b))).1 :: _ = (g x a b).1 :: _
      rw [ans, g1, ih i1 g2 hav t1 t3 hl]

variable {d : List (Nat × Db)} {tr tr2 : Trace} {e : Env} {h i key : Nat} {q sig : Bytes} {V : Obj → Prop} {X : List ((Act × OpIn) × Out)}

/-- What a user sees is what the description says, begun with the operation the mechanism made. -/
theorem went_sim {σ : Type} {R : σ → Op → Prop} {g : σ → Act → OpIn → Out × σ} (hs : Stateless M m) (hk : manyMessages k = false) (hd : k ≠ .digest)
    (hX : Went M C O d tr e h i k m q key sig V tr2 X)
    (hR : ∀ s v, R s v → Plainly m v)
    (hg : ∀ e a b s v, R s v → (solo M e k a b v).1 = (g s a b).1 ∧ R (g s a b).2 (solo M e k a b v).2)
    {x : σ} (hn : ∀ o op, V o → newOp M (e.sub 1) k m q (some o) sig = .ok op → R x op) :
    X.map (·.2) = (describe g x (X.map (·.1))).1 := by
  obtain ⟨h1, h2, h3, h4, h5, h6, ⟨j, h7⟩, h8⟩ := hX
  have i0 := inv_reach M (C := C) O d tr
  have i1 := inv_step M (C := C) O e _ (.op h (.opInit k (some (m, q)) key sig)) i0
  obtain ⟨op, t0, b0, -, n2⟩ := begun (M := M) (C := C) (O := O) i0 hs ((onSlot_iff i0).1 h1) h3 h4
  obtain ⟨sl, o, g1, g2, g3⟩ := n2 hd
  obtain ⟨sl2, g4, sv⟩ := h2
  rw [g1] at g4; injection g4 with g4; subst g4
  obtain ⟨x2, g5, hval⟩ := sv quietEnv (fun _ => rfl)
  have := byHandle_mono (e' := quietEnv) (fun _ => rfl) g2
  rw [g5] at this; injection this with this; subst this
  have hx := hn x2 op hval g3
  generalize (step M C O e (after M C O d tr) (.op h (.opInit k (some (m, q)) key sig))).2 = s at i1 b0 h6 h7 h8
  have j1 := inv_run M (C := C) O tr2 s i1
  have := exchanged_run hs hk hR hg tr2 i1 hx b0 h5 h6 ((onSlot_iff j1).1 h7)
  rw [h8]
  exact this

/-- The operation that was started. -/
theorem went_new (hs : Stateless M m) (hd : k ≠ .digest) (hX : Went M C O d tr e h i k m q key sig V tr2 X) :
    ∃ o op, V o ∧ newOp M (e.sub 1) k m q (some o) sig = .ok op := by
  obtain ⟨h1, h2, h3, h4, -, -, -, -⟩ := hX
  have i0 := inv_reach M (C := C) O d tr
  obtain ⟨op, -, -, -, n2⟩ := begun (M := M) (C := C) (O := O) i0 hs ((onSlot_iff i0).1 h1) h3 h4
  obtain ⟨sl, o, g1, g2, g3⟩ := n2 hd
  obtain ⟨sl2, g4, sv⟩ := h2
  rw [g1] at g4; injection g4 with g4; subst g4
  obtain ⟨x2, g5, hval⟩ := sv quietEnv (fun _ => rfl)
  have := byHandle_mono (e' := quietEnv) (fun _ => rfl) g2
  rw [g5] at this; injection this with this; subst this
  exact ⟨x2, op, hval, g3⟩

/-- The last call. -/
theorem describe_snoc {σ : Type} (g : σ → Act → OpIn → Out × σ) (l : List (Act × OpIn)) (c : Act × OpIn) (s : σ) :
    (describe g s (l ++ [c])).1 = (describe g s l).1 ++ [(g (describe g s l).2 c.1 c.2).1] := by
  induction l generalizing s with
  | nil => rfl
  | cons x l ih =>
    obtain ⟨a, b⟩ := x
    show (g s a b).1 :: (describe g (g s a b).2 (l ++ [c])).1 = _
    rw [ih]
    rfl

theorem describe_last {σ : Type} {g : σ → Act → OpIn → Out × σ} {s : σ} {Y : List ((Act × OpIn) × Out)} {c : Act × OpIn} {r : Out}
    (hX : (Y ++ [(c, r)]).map (·.2) = (describe g s ((Y ++ [(c, r)]).map (·.1))).1) :
    Y.map (·.2) = (describe g s (Y.map (·.1))).1 ∧ r = (g (describe g s (Y.map (·.1))).2 c.1 c.2).1 := by
  rw [List.map_append, List.map_append, List.map_singleton, List.map_singleton, describe_snoc] at hX
  have := List.append_inj' hX rfl
  exact ⟨this.1, by injection this.2⟩

end Kry

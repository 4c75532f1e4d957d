import Verif.Props.C32
import Verif.Props.C37Names
import Verif.Props.C25

/-!
# C33: the configured mechanism filters

`C33_config`: what the `mechanisms` option of a slot means.  `C33_refused`: a mechanism that C_GetMechanismInfo does not know can
not be used.  `C33_transparent`: a mechanism that it knows can be used as if there was no filter.
`C33_objects_violation`: the CKO_MECHANISM objects of the token ignore the filter.
-/

namespace Kry
namespace Spec

/-- What a `mechanisms` option allows: everything without the option, the listed names, or all but those listed after "DENY". -/
def wants (opt : Option (List String)) (m : Nat) : Prop :=
  match opt with
  | none => True
  | some [] => False
  | some (n :: l) =>
    if n = "DENY" then ¬ ∃ x ∈ l, (m, x) ∈ mechNames
    else ∃ x ∈ n :: l, (m, x) ∈ mechNames

/-- Every name of the option is the name of a mechanism (the first may be "DENY"). -/
def namesKnown (opt : Option (List String)) : Prop :=
  match opt with
  | none => True
  | some [] => True
  | some (n :: l) => (n = "DENY" ∨ ∃ m, (m, n) ∈ mechNames) ∧ ∀ x ∈ l, ∃ m, (m, x) ∈ mechNames

/-- The call asks for mechanism `m`. -/
def uses (c : OCall) (m : Nat) : Prop :=
  match c with
  | .opInit _ (some (m', _)) _ _ => m' = m
  | .generateKey m' _ _ => m' = m
  | .generatePair m' _ _ _ => m' = m
  | .wrap m' _ _ _ _ => m' = m
  | .unwrap m' _ _ _ _ => m' = m
  | .derive m' _ _ _ => m' = m
  | .encapsulate m' _ _ _ => m' = m
  | .decapsulate m' _ _ _ => m' = m
  | _ => False

end Spec

open Spec

variable {M : Mechs} {C : Crypto} {O : Oracle}

theorem mechCodes_ok {l : List String} {r : List Nat} (h : mechCodes l = .ok r) :
    (∀ m, m ∈ r ↔ ∃ x ∈ l, (m, x) ∈ mechNames) ∧ ∀ x ∈ l, ∃ m, (m, x) ∈ mechNames := by
  induction l generalizing r with
  | nil =>
    injection h with h
    subst h
    exact ⟨fun m => by simp, nofun⟩
  | cons n l ih =>
    unfold mechCodes at h
    cases h1 : nameLookup mechNames n with
    | error e => rw [h1] at h; cases h
    | ok k =>
      rw [h1] at h
      cases h2 : mechCodes l with
      | error e => rw [h2] at h; cases h
      | ok t =>
        rw [h2] at h
        injection h with h
        subst h
        obtain ⟨i1, i2⟩ := ih h2
        have hk : (k, n) ∈ mechNames := (C37_names_exact n k).1.1 h1
        refine ⟨fun m => ?_, fun x hx => ?_⟩
        · rw [List.mem_cons, i1]
          constructor
          · rintro (rfl | ⟨x, hx, hm⟩)
            · exact ⟨n, List.mem_cons_self .., hk⟩
            · exact ⟨x, List.mem_cons_of_mem _ hx, hm⟩
          · rintro ⟨x, hx, hm⟩
            rcases List.mem_cons.1 hx with rfl | hx
            · left
              have := (C37_names_exact x m).1.2 hm
              rw [h1] at this
              injection this with this
              exact this.symm
            · exact .inr ⟨x, hx, hm⟩
        · rcases List.mem_cons.1 hx with rfl | hx
          · exact ⟨k, hk⟩
          · exact i2 x hx

theorem mechCodes_known {l : List String} (h : ∀ x ∈ l, ∃ m, (m, x) ∈ mechNames) : ∃ r, mechCodes l = .ok r := by
  induction l with
  | nil => exact ⟨[], rfl⟩
  | cons n l ih =>
    obtain ⟨m, hm⟩ := h n (List.mem_cons_self ..)
    obtain ⟨r, hr⟩ := ih fun x hx => h x (List.mem_cons_of_mem _ hx)
    exact ⟨m :: r, by unfold mechCodes; rw [(C37_names_exact n m).1.2 hm, hr]⟩

/-- The token of a slot offers exactly the registered mechanisms that the option of the slot wants; a name that is not the name of
a mechanism ("DENY" too, elsewhere than in front) is an error, and nothing else is. -/
theorem C33_config (reg : List Nat) (c : CSlot) :
    (namesKnown c.mechs ↔ ∃ cfg, c.tokCfg reg = .ok cfg) ∧
    ∀ cfg, c.tokCfg reg = .ok cfg → ∀ (t : Token), t.cfg = cfg → ∀ m, m ∈ t.mechsList ↔ m ∈ reg ∧ wants c.mechs m := by
  have hdeny : ∀ m, (m, "DENY") ∉ mechNames := by
    intro m hm
    have := (C37_names_exact "DENY" m).1.2 hm
    rw [show nameLookup mechNames "DENY" = .error .argumentsBad by decide +kernel] at this
    cases this
  obtain ⟨sl, d1, d2, d3, d4, mechs, dd⟩ := c
  unfold CSlot.tokCfg CSlot.mechList namesKnown wants
  rcases mechs with _ | _ | ⟨n, l⟩
  · refine ⟨⟨fun _ => ⟨_, rfl⟩, fun _ => trivial⟩, fun cfg h t ht m => ?_⟩
    injection h with h
    subst h
    simp [Token.mechsList, ht]
  · refine ⟨⟨fun _ => ⟨_, rfl⟩, fun _ => trivial⟩, fun cfg h t ht m => ?_⟩
    injection h with h
    subst h
    simp [Token.mechsList, ht]
  · simp only
    by_cases hn : n = "DENY"
    · simp only [hn, if_true]
      refine ⟨⟨fun h => ?_, fun ⟨cfg, h⟩ => ?_⟩, fun cfg h t ht m => ?_⟩
      · obtain ⟨r, hr⟩ := mechCodes_known h.2
        rw [hr]
        exact ⟨_, rfl⟩
      · cases h1 : mechCodes l with
        | error e => rw [h1] at h; cases h
        | ok r => exact ⟨.inl trivial, (mechCodes_ok h1).2⟩
      · cases h1 : mechCodes l with
        | error e => rw [h1] at h; cases h
        | ok r =>
          rw [h1] at h
          injection h with h
          subst h
          simp only [Token.mechsList, ht, List.mem_filter, List.contains_eq_mem, Bool.not_eq_true', decide_eq_false_iff_not, (mechCodes_ok h1).1]
    · simp only [hn, if_false, false_or]
      refine ⟨⟨fun h => ?_, fun ⟨cfg, h⟩ => ?_⟩, fun cfg h t ht m => ?_⟩
      · obtain ⟨r, hr⟩ := mechCodes_known (l := n :: l) (fun x hx => by
          rcases List.mem_cons.1 hx with rfl | hx
          · exact h.1
          · exact h.2 x hx)
        rw [hr]
        exact ⟨_, rfl⟩
      · cases h1 : mechCodes (n :: l) with
        | error e => rw [h1] at h; cases h
        | ok r =>
          have := (mechCodes_ok h1).2
          exact ⟨this n (List.mem_cons_self ..), fun x hx => this x (List.mem_cons_of_mem _ hx)⟩
      · cases h1 : mechCodes (n :: l) with
        | error e => rw [h1] at h; cases h
        | ok r =>
          rw [h1] at h
          injection h with h
          subst h
          simp only [Token.mechsList, ht, List.mem_filter, List.contains_eq_mem, decide_eq_true_eq, (mechCodes_ok h1).1]

/-! ## Using what is not offered -/

theorem mechWith_no {t : Token} {m f : Nat} (h : m ∉ t.mechsList) : mechWith M t m f = .error .mechanismInvalid := by
  unfold mechWith
  rw [if_pos (by simpa using h)]

theorem opStep_refused {e : Env} {h : Nat} {c : OCall} {x : Session} {t : Token} {m : Nat} (hu : uses c m) (hm : m ∉ t.mechsList) :
    refusal (opStep M C e h c x t).1 = true ∧ (opStep M C e h c x t).2 = (x, t) := by
  have key : ∀ f, mechWith M t m f = .error .mechanismInvalid := fun f => mechWith_no hm
  cases c with
  | opInit k mech hk sig =>
    rcases mech with _ | ⟨m', p⟩
    · cases hu
    · cases hu
      have h1 : ∃ r, fnInitDigest M e m p x t = (.error r, x) := by
        unfold fnInitDigest
        simp only [key]
        repeat' split
        all_goals exact ⟨_, rfl⟩
      have h2 : ∃ r, fnInitKey M C e k m p hk sig x t = (.error r, x) := by
        unfold fnInitKey
        simp only [key]
        repeat' split
        all_goals exact ⟨_, rfl⟩
      obtain ⟨r1, h1⟩ := h1
      obtain ⟨r2, h2⟩ := h2
      simp only [opStep, h1, h2]
      split <;> exact ⟨rfl, rfl⟩
  | generateKey m' p tm =>
    cases hu
    have h1 : ∃ r, fnGenKey M C e h m p tm x t = (.error r, t) := by
      unfold fnGenKey
      simp only [key]
      repeat' split
      all_goals exact ⟨_, rfl⟩
    obtain ⟨r1, h1⟩ := h1
    simp only [opStep, h1]
    exact ⟨rfl, trivial⟩
  | generatePair m' p pub priv =>
    cases hu
    have h1 : ∃ r, fnGenPair M C e h m p pub priv x t = (.error r, t) := by
      unfold fnGenPair
      simp only [key]
      repeat' split
      all_goals exact ⟨_, rfl⟩
    obtain ⟨r1, h1⟩ := h1
    simp only [opStep, h1]
    exact ⟨rfl, trivial⟩
  | wrap m' p w k out =>
    cases hu
    have h1 : ∃ r, fnWrap M C e m p w k out t = .err r := by
      unfold fnWrap
      simp only [key]
      repeat' split
      all_goals exact ⟨_, rfl⟩
    obtain ⟨r1, h1⟩ := h1
    simp only [opStep, h1]
    exact ⟨rfl, trivial⟩
  | unwrap m' p k data tm =>
    cases hu
    have h1 : ∃ r, fnUnwrap M C e h m p k data tm x t = (.error r, t) := by
      unfold fnUnwrap
      simp only [key]
      repeat' split
      all_goals exact ⟨_, rfl⟩
    obtain ⟨r1, h1⟩ := h1
    simp only [opStep, h1]
    exact ⟨rfl, trivial⟩
  | derive m' p k tm =>
    cases hu
    have h1 : ∃ r, fnDerive M C e h m p k tm x t = (.error r, t) := by
      unfold fnDerive
      simp only [key]
      repeat' split
      all_goals exact ⟨_, rfl⟩
    obtain ⟨r1, h1⟩ := h1
    simp only [opStep, h1]
    exact ⟨rfl, trivial⟩
  | encapsulate m' k tm out =>
    cases hu
    have h1 : ∃ r, fnEncap M C e h m k tm out x t = (.err r, t) := by
      unfold fnEncap
      simp only [key]
      repeat' split
      all_goals exact ⟨_, rfl⟩
    obtain ⟨r1, h1⟩ := h1
    simp only [opStep, h1]
    exact ⟨rfl, trivial⟩
  | decapsulate m' k data tm =>
    cases hu
    have h1 : ∃ r, fnDecap M C e h m k data tm x t = (.error r, t) := by
      unfold fnDecap
      simp only [key]
      repeat' split
      all_goals exact ⟨_, rfl⟩
    obtain ⟨r1, h1⟩ := h1
    simp only [opStep, h1]
    exact ⟨rfl, trivial⟩
  | _ => cases hu

/-! ## Using what is offered -/

namespace Spec

/-- The token without mechanism filter. -/
def openT (t : Token) : Token := { t with cfg := { t.cfg with filter := none } }

/-- The library where slot `i` has no mechanism filter, everything else the same. -/
def openSlot (s : St) (i : Nat) : St := { s with slots := AMap.modify s.slots i fun sl => ⟨openT sl.token, sl.sessions⟩ }

end Spec

theorem get_open {e : Env} {t : Token} {h : Nat} : (openT t).getObjectByHandle C e h = t.getObjectByHandle C e h := rfl

theorem insert_open {e : Env} {t : Token} {s : Nat} {o : Obj} :
    (openT t).insertObject C e s o = ((t.insertObject C e s o).1, openT (t.insertObject C e s o).2) := by
  unfold Token.insertObject openT
  simp only [Token.loggedIn]
  split
  · by_cases hb : t.logged.isSome = true <;> simp [hb]
  · repeat' split
    all_goals rfl

theorem destroy_open {e : Env} {t : Token} {h : Nat} :
    ((openT t).destroyObject C e h).2 = openT (t.destroyObject C e h).2 := by
  unfold Token.destroyObject openT
  simp only [Token.loggedIn]
  repeat' split
  all_goals rfl

theorem fetchAll_open {e : Env} {t : Token} {l : List Nat} {i : Nat} : fetchAll C e (openT t) l i = fetchAll C e t l i := by
  induction l generalizing i with
  | nil => rfl
  | cons h l ih => unfold fetchAll; rw [get_open, ih]

theorem insertAll_open {e : Env} {h : Nat} {t : Token} {l : List Obj} {i : Nat} :
    insertAll C e h (openT t) l i = ((insertAll C e h t l i).1, (insertAll C e h t l i).2.1, openT (insertAll C e h t l i).2.2) := by
  induction l generalizing i t with
  | nil => rfl
  | cons o l ih =>
    unfold insertAll
    simp only [insert_open]
    generalize t.insertObject C (e.sub i) h (fresh o) = p
    obtain ⟨r, t1⟩ := p
    cases r with
    | error r => rfl
    | ok n => simp only [ih]

theorem destroyAll_open {e : Env} {t : Token} {l : List Nat} {i : Nat} :
    destroyAll C e (openT t) l i = openT (destroyAll C e t l i) := by
  induction l generalizing i t with
  | nil => rfl
  | cons h l ih => unfold destroyAll; rw [destroy_open, ih]

theorem mechWith_open {t : Token} {m f : Nat} (h : m ∈ t.mechsList) : mechWith M (openT t) m f = mechWith M t m f := by
  have h' : m ∈ (openT t).mechsList := by
    show m ∈ t.cfg.mechs
    unfold Token.mechsList at h
    split at h
    · exact h
    · exact (List.mem_filter.1 h).1
    · exact (List.mem_filter.1 h).1
  unfold mechWith
  have c1 : (openT t).mechsList.contains m = true := by simpa using h'
  have c2 : t.mechsList.contains m = true := by simpa using h
  rw [c1, c2]

theorem opStep_open {e : Env} {h : Nat} {c : OCall} {x : Session} {t : Token} {m : Nat} (hu : uses c m) (hm : m ∈ t.mechsList) :
    opStep M C e h c x (openT t) = ((opStep M C e h c x t).1, (opStep M C e h c x t).2.1, openT (opStep M C e h c x t).2.2) := by
  have key : ∀ f, mechWith M (openT t) m f = mechWith M t m f := fun f => mechWith_open hm
  have hin : (openT t).isInitialized = t.isInitialized := rfl
  cases c with
  | opInit k mech hk sig =>
    rcases mech with _ | ⟨m', p⟩
    · cases hu
    · cases hu
      have h1 : fnInitDigest M e m p x (openT t) = fnInitDigest M e m p x t := by
        unfold fnInitDigest
        simp only [key, hin]
      have h2 : fnInitKey M C e k m p hk sig x (openT t) = fnInitKey M C e k m p hk sig x t := by
        unfold fnInitKey
        simp only [key, hin, get_open]
        try rfl
      simp only [opStep, h1, h2]
  | generateKey m' p tm =>
    cases hu
    have h1 : fnGenKey M C e h m p tm x (openT t) =
        ((fnGenKey M C e h m p tm x t).1, openT (fnGenKey M C e h m p tm x t).2) := by
      unfold fnGenKey
      simp only [key, hin, insert_open]
      repeat' split
      all_goals rfl
    simp only [opStep, h1]
  | generatePair m' p pub priv =>
    cases hu
    have h1 : fnGenPair M C e h m p pub priv x (openT t) =
        ((fnGenPair M C e h m p pub priv x t).1, openT (fnGenPair M C e h m p pub priv x t).2) := by
      unfold fnGenPair
      simp only [key, hin, insert_open, destroy_open]
      repeat' split
      all_goals rfl
    simp only [opStep, h1]
    generalize fnGenPair M C e h m p pub priv x t = q
    obtain ⟨r, t1⟩ := q
    cases r <;> rfl
  | wrap m' p w k out =>
    cases hu
    have h1 : fnWrap M C e m p w k out (openT t) = fnWrap M C e m p w k out t := by
      unfold fnWrap
      simp only [key, hin, get_open]
    simp only [opStep, h1]
  | unwrap m' p k data tm =>
    cases hu
    have h1 : fnUnwrap M C e h m p k data tm x (openT t) =
        ((fnUnwrap M C e h m p k data tm x t).1, openT (fnUnwrap M C e h m p k data tm x t).2) := by
      unfold fnUnwrap
      simp only [key, hin, insert_open, get_open]
      repeat' split
      all_goals rfl
    simp only [opStep, h1]
  | derive m' p k tm =>
    cases hu
    have h1 : fnDerive M C e h m p k tm x (openT t) =
        ((fnDerive M C e h m p k tm x t).1, openT (fnDerive M C e h m p k tm x t).2) := by
      unfold fnDerive
      simp only [key, hin, insert_open, get_open, fetchAll_open, insertAll_open, destroyAll_open]
      repeat' split
      all_goals rfl
    simp only [opStep, h1]
    generalize fnDerive M C e h m p k tm x t = q
    obtain ⟨r, t1⟩ := q
    cases r <;> rfl
  | encapsulate m' k tm out =>
    cases hu
    have h1 : fnEncap M C e h m k tm out x (openT t) =
        ((fnEncap M C e h m k tm out x t).1, openT (fnEncap M C e h m k tm out x t).2) := by
      unfold fnEncap
      simp only [key, hin, insert_open, get_open]
      repeat' split
      all_goals rfl
    simp only [opStep, h1]
  | decapsulate m' k data tm =>
    cases hu
    have h1 : fnDecap M C e h m k data tm x (openT t) =
        ((fnDecap M C e h m k data tm x t).1, openT (fnDecap M C e h m k data tm x t).2) := by
      unfold fnDecap
      simp only [key, hin, insert_open, get_open]
      repeat' split
      all_goals rfl
    simp only [opStep, h1]
  | _ => cases hu

/-! ## The machine -/

/-- Every time slot `i` is configured in the run, it is configured from `c`, in a build with the mechanisms `reg`. -/
def Spec.configured (tr : Trace) (i : Nat) (reg : List Nat) (c : CSlot) : Prop :=
  ∀ p ∈ tr, ∀ conf, p.2 = .initialize conf → ∀ g, (i, g) ∈ conf → c.tokCfg reg = .ok g

theorem offered_iff {d : List (Nat × Db)} {tr : Trace} {i : Nat} {reg : List Nat} {c : CSlot} (hc : configured tr i reg c)
    {sl : Slot} (hs : AMap.get (after M C O d tr).slots i = some sl) (m : Nat) :
    m ∈ sl.token.mechsList ↔ m ∈ reg ∧ wants c.mechs m := by
  obtain ⟨p, hp, conf, h1, h2⟩ := cfg_from d tr hs
  exact (C33_config reg c).2 _ (hc p hp conf h1 _ h2) sl.token rfl m

/-- C_GetMechanismInfo knows exactly the implemented mechanisms that the configuration wants. -/
theorem C33_reported (d : List (Nat × Db)) (tr : Trace) (i : Nat) (reg : List Nat) (c : CSlot) (hc : configured tr i reg c)
    (hok : ∃ m f, fnMechInfo M (after M C O d tr) i m = .ok f) (m : Nat) :
    (∃ f, fnMechInfo M (after M C O d tr) i m = .ok f) ↔ m ∈ reg ∧ wants c.mechs m := by
  have ho := fun sl => @offered_iff M C O d tr i reg c hc sl
  generalize after M C O d tr = s at *
  obtain ⟨m0, f0, hok⟩ := hok
  unfold fnMechInfo at *
  cases hg : s.getSlot i with
  | error r => rw [hg] at hok; cases hok
  | ok sl =>
    have hs : AMap.get s.slots i = some sl := by
      unfold St.getSlot at hg
      split at hg
      · cases hg
      · split at hg
        · rename_i h; rw [h]; injection hg with hg; rw [hg]
        · cases hg
    rw [hg] at hok
    simp only at hok ⊢
    split at hok
    · cases hok
    · rename_i hi
      rw [if_neg hi, ← ho sl hs m]
      by_cases hm : m ∈ sl.token.mechsList
      · simp [hm]
      · simp [hm]

/-- A call that names a mechanism that is not implemented or not wanted by the configuration is refused and changes nothing. -/
theorem C33_refused (d : List (Nat × Db)) (tr : Trace) (i : Nat) (reg : List Nat) (c : CSlot) (hc : configured tr i reg c)
    (h : Nat) (hh : onSlot M C O (after M C O d tr) h i) (m : Nat) (hm : ¬ (m ∈ reg ∧ wants c.mechs m)) (k : OCall) (hk : uses k m)
    (e : Env) :
    refusal (step M C O e (after M C O d tr) (.op h k)).1 = true ∧
      (step M C O e (after M C O d tr) (.op h k)).2 = after M C O d tr := by
  have ho := fun sl => @offered_iff M C O d tr i reg c hc sl
  have hi : Inv (after M C O d tr) := (inv_reach M O d tr (C := C))
  generalize after M C O d tr = s at *
  rw [onSlot_iff hi] at hh
  simp only [step]
  cases hg : s.getSession h with
  | error r => exact ⟨rfl, rfl⟩
  | ok q =>
    obtain ⟨i', sl, x⟩ := q
    obtain ⟨-, g1, g2, g3⟩ := getSession_ok hg
    rw [hh] at g1
    cases g1
    have hr := @opStep_refused M C e h k x sl.token m hk (fun hm' => hm ((ho sl g2 m).1 hm'))
    simp only
    generalize opStep M C e h k x sl.token = q at hr
    obtain ⟨o, x', t'⟩ := q
    obtain ⟨r1, r2⟩ := hr
    cases r2
    exact ⟨r1, setSlot_same hi g2 g3⟩

theorem modify_modify {m : List (Nat × Slot)} {i : Nat} {f g k l : Slot → Slot} (h : ∀ x, AMap.get m i = some x → g (f x) = l (k x))
    (hn : (AMap.keys m).Nodup) :
    AMap.modify (AMap.modify m i f) i g = AMap.modify (AMap.modify m i k) i l := by
  unfold AMap.modify
  rw [List.map_map, List.map_map]
  refine List.map_congr_left fun p hp => ?_
  obtain ⟨a, x⟩ := p
  simp only [Function.comp]
  by_cases ha : a = i
  · subst ha
    simp [h x ((AMap.mem_iff_get hn).1 hp)]
  · simp [ha]

/-- A call that names an implemented mechanism that the configuration wants does exactly what it does without filter. -/
theorem C33_transparent (d : List (Nat × Db)) (tr : Trace) (i : Nat) (reg : List Nat) (c : CSlot) (hc : configured tr i reg c)
    (h : Nat) (hh : onSlot M C O (after M C O d tr) h i) (m : Nat) (hm : m ∈ reg ∧ wants c.mechs m) (k : OCall) (hk : uses k m)
    (e : Env) :
    step M C O e (openSlot (after M C O d tr) i) (.op h k) =
      ((step M C O e (after M C O d tr) (.op h k)).1, openSlot (step M C O e (after M C O d tr) (.op h k)).2 i) := by
  have ho := fun sl => @offered_iff M C O d tr i reg c hc sl
  have hi : Inv (after M C O d tr) := (inv_reach M O d tr (C := C))
  generalize after M C O d tr = s at *
  rw [onSlot_iff hi] at hh
  simp only [step]
  cases hg : s.getSession h with
  | error r =>
    exfalso
    obtain ⟨sl, x, h1, h2⟩ := (hi.link h i).1 hh
    have hb := hi.bound h i hh
    have g0 : s.ready = true := by
      unfold St.ready
      have : s.next ≠ 0 := by omega
      simpa using this
    unfold St.getSession St.getSessionSlot St.getSlot at hg
    simp [g0, h1, hh, h2] at hg
  | ok q =>
    obtain ⟨i', sl, x⟩ := q
    obtain ⟨g0, g1, g2, g3⟩ := getSession_ok hg
    rw [hh] at g1
    cases g1
    have hg' : (openSlot s i).getSession h = .ok (i, ⟨openT sl.token, sl.sessions⟩, x) := by
      have g0' : (openSlot s i).ready = true := g0
      have g2' : AMap.get (openSlot s i).slots i = some ⟨openT sl.token, sl.sessions⟩ := by
        simp [openSlot, AMap.get_modify, g2]
      have hh' : AMap.get (openSlot s i).smap h = some i := hh
      unfold St.getSession St.getSessionSlot St.getSlot
      simp [g0', g2', hh', g3]
    rw [hg']
    simp only [@opStep_open M C e h k x sl.token m hk ((ho sl g2 m).2 hm)]
    generalize opStep M C e h k x sl.token = q
    obtain ⟨o, x', t'⟩ := q
    refine Prod.ext rfl ?_
    unfold St.setSlot openSlot
    simp only
    congr 1
    exact modify_modify (fun _ _ => rfl) hi.slotsND

/-! ## Cases -/

/-- A slot whose configuration allows one mechanism of two. -/
def exAllowSlot : CSlot := ⟨7, none, none, none, none, some ["CKM_SHA256"], none⟩

def exAllowCfg : TokCfg := ⟨registered [CKM_SHA256, CKM_AES_ECB], some (false, [CKM_SHA256]), none⟩

def exAllowRun : Trace :=
  [(exEnv 0, .initialize [(7, exAllowCfg)]), (exEnv 1, .initToken 7 exSoPin none), (exEnv 2, .openSession 7 6)]

theorem exAllow_cfg : exAllowSlot.tokCfg (registered [CKM_SHA256, CKM_AES_ECB]) = .ok exAllowCfg := by decide +kernel


/-- The same after a restart, looking for CKO_MECHANISM objects. -/
def exAllowSeen : Trace := exAllowRun ++ [(exEnv 3, .finalize), (exEnv 4, .initialize [(7, exAllowCfg)]), (exEnv 5, .openSession 7 6)]

theorem exAllow_conf : ∀ tr, tr = exAllowRun ∨ tr = exAllowSeen → configured tr 7 (registered [CKM_SHA256, CKM_AES_ECB]) exAllowSlot := by
  intro tr htr p hp conf hc g hg
  have hall : p ∈ exAllowSeen := by
    rcases htr with rfl | rfl
    · exact List.mem_append_left _ hp
    · exact hp
  clear hp
  simp only [exAllowSeen, exAllowRun, List.cons_append, List.nil_append, List.mem_cons, List.not_mem_nil, or_false] at hall
  rcases hall with rfl | rfl | rfl | rfl | rfl | rfl <;> cases hc
  all_goals
    simp only [List.mem_cons, List.not_mem_nil, or_false, Prod.mk.injEq, true_and] at hg
    rw [hg]
    exact exAllow_cfg

/-- The hypotheses of the theorems hold: the allowed mechanism works, the other is refused. -/
example :
    configured exAllowRun 7 (registered [CKM_SHA256, CKM_AES_ECB]) exAllowSlot ∧
    onSlot exMechs exCrypto exOracle (exRun exAllowRun) 1 7 ∧
    wants exAllowSlot.mechs CKM_SHA256 ∧ ¬ wants exAllowSlot.mechs CKM_AES_ECB ∧
    fnMechInfo exMechs (exRun exAllowRun) 7 CKM_SHA256 = .ok 0xFFFFFFFF ∧
    (step exMechs exCrypto exOracle (exEnv 3) (exRun exAllowRun) (.op 1 (.opInit .digest (some (CKM_SHA256, [])) 0 []))).1 = .ok ∧
    (step exMechs exCrypto exOracle (exEnv 3) (exRun exAllowRun) (.op 1 (.generateKey CKM_AES_ECB [] []))).1 = .err .mechanismInvalid := by
  refine ⟨exAllow_conf _ (.inl rfl), ⟨quietEnv, .rwPublic, 6, by decide +kernel⟩, ⟨"CKM_SHA256", by simp [exAllowSlot], by decide +kernel⟩, ?_,
    by decide +kernel, by decide +kernel, by decide +kernel⟩
  rintro ⟨x, hx, hm⟩
  simp only [List.mem_cons, List.not_mem_nil, or_false] at hx
  subst hx
  revert hm
  decide +kernel

/-- A deny list. -/
example : namesKnown (some ["DENY", "CKM_SHA256"]) ∧ ¬ namesKnown (some ["CKM_SHA256", "DENY"]) ∧
    wants (some ["DENY", "CKM_SHA256"]) CKM_AES_ECB := by
  refine ⟨⟨.inl rfl, ?_⟩, ?_, ?_⟩
  · simp only [List.mem_cons, List.not_mem_nil, or_false, forall_eq]
    exact ⟨CKM_SHA256, by decide +kernel⟩
  · rintro ⟨-, h⟩
    obtain ⟨m, hm⟩ := h "DENY" (List.mem_cons_self ..)
    have := (C37_names_exact "DENY" m).1.2 hm
    rw [show nameLookup mechNames "DENY" = .error .argumentsBad by decide +kernel] at this
    cases this
  · rintro ⟨x, hx, hm⟩
    simp only [List.mem_cons, List.not_mem_nil, or_false] at hx
    subst hx
    revert hm
    decide +kernel

/-- The code does not keep the claim for the CKO_MECHANISM objects: they are created before the filter is set, so a search finds one
for a mechanism that is not offered. -/
theorem C33_objects_violation : ∃ (M : Mechs) (C : Crypto) (O : Oracle) (tr : Trace) (i h n m : Nat) (reg : List Nat) (c : CSlot),
    configured tr i reg c ∧ onSlot M C O (after M C O [] tr) h i ∧
    reports M C O (after M C O [] tr) h n CKA_CLASS (ulongBytes CKO_MECHANISM) ∧
    reports M C O (after M C O [] tr) h n CKA_MECHANISM_TYPE (ulongBytes m) ∧
    ¬ wants c.mechs m ∧ fnMechInfo M (after M C O [] tr) i m = .error .mechanismInvalid := by
  refine ⟨exMechs, exCrypto, exOracle, exAllowSeen, 7, 1, 7, CKM_AES_ECB, _, exAllowSlot, exAllow_conf _ (.inr rfl),
    ⟨quietEnv, .rwPublic, 6, by decide +kernel⟩, ?_, ?_, ?_, by decide +kernel⟩
  · exact ⟨exEnv 0, ⟨CKA_CLASS, false, 8, List.replicate 8 0⟩, ⟨CKA_CLASS, false, 8, ulongBytes CKO_MECHANISM⟩, rfl, rfl, by decide +kernel, by decide +kernel⟩
  · exact ⟨exEnv 0, ⟨CKA_MECHANISM_TYPE, false, 8, List.replicate 8 0⟩, ⟨CKA_MECHANISM_TYPE, false, 8, ulongBytes CKM_AES_ECB⟩, rfl, rfl, by decide +kernel, by decide +kernel⟩
  · rintro ⟨x, hx, hm⟩
    simp only [List.mem_cons, List.not_mem_nil, or_false] at hx
    subst hx
    revert hm
    decide +kernel

end Kry

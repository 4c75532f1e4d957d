import Verif.Props.C69
import Verif.Proofs.Handles

/-! C70: searching an NSS database.  The rows found are those that hold the values asked for. -/

namespace Kry
open Spec (askable holdsCol tidy NssOk calmEnv fits drawn saltsApart sealedIn nssStorable)

variable {N : NssLib}

theorem toBE_fromBE4 {b : Bytes} (h : b.length = 4) : toBE 4 (fromBE b) = b := by
  unfold toBE fromBE
  have := toLE_fromLE b.reverse
  rw [List.length_reverse, h] at this
  rw [this, List.reverse_reverse]

/-- The parameter of the query is met exactly by the columns read as the value. -/
theorem params_match {a : CkAttr} (ha : askable a) {row : NssRow} (hfull : ∀ c, AMap.get row c ≠ some []) :
    ∃ v, (∀ as ps, nssParams (a :: as) = .ok ps → ∃ qs, nssParams as = .ok qs ∧ ps = (a.typ, v) :: qs) ∧ (AMap.get row a.typ = some v ↔ holdsCol row a) := by
  obtain ⟨typ, pv⟩ := a
  unfold askable at ha
  have hps : ∀ v : Bytes, (∀ k, attrKind typ = some k → nssParamVal k ⟨typ, pv⟩ = .ok v) →
      ∀ as ps, nssParams (⟨typ, pv⟩ :: as) = .ok ps → ∃ qs, nssParams as = .ok qs ∧ ps = (typ, v) :: qs := by
    intro v hv as ps h
    rw [nssParams] at h
    cases hk : attrKind typ with
    | none => simp only [hk] at h; cases h
    | some k =>
      simp only [hk, hv k hk] at h
      cases hq : nssParams as with
      | error r => simp only [hq] at h; cases h
      | ok qs =>
        simp only [hq] at h
        injection h with h
        exact ⟨qs, rfl, h.symm⟩
  cases pv with
  | null n => exact absurd ha id
  | data v =>
    have plain : ∀ k, attrKind typ = some k → (k = .bool ∨ k = .string ∨ k = .bytes ∨ k = .date) → v ≠ [0xa5, 0x00, 0x5a] →
        ∃ w, (∀ as ps, nssParams (⟨typ, .data v⟩ :: as) = .ok ps → ∃ qs, nssParams as = .ok qs ∧ ps = (typ, w) :: qs) ∧
          (AMap.get row typ = some w ↔ holdsCol row ⟨typ, .data v⟩) := by
      intro k hk hkk hv
      have hrd : ∀ b, nssReadCol typ b = .ok ⟨typ, k, if b = nssNull then [] else b⟩ := by
        intro b
        unfold nssReadCol
        rw [hk]
        rcases hkk with h | h | h | h <;> subst h <;> rfl
      refine ⟨if v = [] then nssNull else v, hps _ ?_, ?_, ?_⟩
      · intro k' hk'
        rw [hk] at hk'
        injection hk' with hk'; subst hk'
        unfold nssParamVal
        by_cases hv0 : v = []
        · subst hv0; rfl
        · rw [if_neg hv0, if_neg (by intro hx; exact hv0 (List.length_eq_zero_iff.1 hx))]
          rcases hkk with h | h | h | h <;> subst h <;> rfl
      · intro hg
        refine ⟨_, _, hg, hrd _, ?_⟩
        by_cases hv0 : v = []
        · subst hv0; rfl
        · simp only [if_neg hv0]
          rw [show nssNull = [0xa5, 0x00, 0x5a] from rfl, if_neg hv]
          rfl
      · rintro ⟨b, x, hb, hx, hval⟩
        rw [hrd] at hx
        injection hx with hx; subst hx
        simp only at hb
        have hval : (if b = nssNull then [] else b) = v := hval
        by_cases hbn : b = nssNull
        · rw [if_pos hbn] at hval
          rw [if_pos hval.symm, hb, hbn]
        · rw [if_neg hbn] at hval
          rw [if_neg, hb, hval]
          intro hv0
          rw [← hval] at hv0
          exact hfull typ (by rw [hb, hv0])
    cases hk : attrKind typ with
    | none => simp only [hk] at ha
    | some k =>
      cases k <;> simp only [hk] at ha
      case bool => exact plain _ hk (by decide) ha
      case string => exact plain _ hk (by decide) ha
      case bytes => exact plain _ hk (by decide) ha
      case date => exact plain _ hk (by decide) ha
      case num =>
        obtain ⟨hp, n, hn, hv⟩ := ha
        subst hv
        have hul : CkAttr.toUlong ⟨typ, .data (ulongBytes n)⟩ = .ok n := by
          unfold CkAttr.toUlong
          rw [if_neg (by simp [PVal.len, ulongSize])]
          simp only
          rw [fromLE_ulongBytes n (by omega)]
        have hnv : nssNumVal n = .ok (toBE 4 n) := by
          unfold nssNumVal
          rw [if_neg, if_pos hn]
          intro hc
          rw [hc] at hn
          exact absurd hn (by decide)
        refine ⟨toBE 4 n, hps _ ?_, ?_, ?_⟩
        · intro k' hk'
          rw [hk] at hk'
          injection hk' with hk'; subst hk'
          unfold nssParamVal
          rw [if_neg (by simp [PVal.len])]
          simp only [hul, hnv]
        · intro hg
          refine ⟨_, ⟨typ, .num, ulongBytes n⟩, hg, ?_, rfl⟩
          unfold nssReadCol
          simp only [hk, if_neg hp, toBE_length, if_true, fromBE_toBE 4 n (by omega)]
        · rintro ⟨b, x, hb, hx, hval⟩
          unfold nssReadCol at hx
          simp only [hk, if_neg hp] at hx
          split at hx
          · cases hx
          rename_i m hm
          split at hm
          · rename_i hl
            injection hm with hm; subst hm
            injection hx with hx; subst hx
            have hval : ulongBytes (fromBE b) = ulongBytes n := hval
            have hlt : fromBE b < 2 ^ 32 := by
              have := fromLE_lt b.reverse
              rw [List.length_reverse, hl] at this
              exact this
            have : fromBE b = n := by
              have h2 := congrArg fromLE hval
              rw [fromLE_ulongBytes _ (by omega), fromLE_ulongBytes _ (by omega)] at h2
              exact h2
            simp only at hb
            rw [hb, ← this, toBE_fromBE4 hl]
          · cases hm

theorem params_all {tm : Template} (ha : ∀ a ∈ tm, askable a) {row : NssRow} (hfull : ∀ c, AMap.get row c ≠ some []) {ps : List (Nat × Bytes)}
    (h : nssParams tm = .ok ps) : (ps.all fun p => AMap.get row p.1 == some p.2) = true ↔ ∀ a ∈ tm, holdsCol row a := by
  induction tm generalizing ps with
  | nil => injection h with h; subst h; simp
  | cons a tm ih =>
    obtain ⟨v, h1, h2⟩ := params_match (ha a (.head _)) hfull
    obtain ⟨qs, hq, hp⟩ := h1 tm ps h
    subst hp
    have := ih (fun b hb => ha b (.tail _ hb)) hq
    rw [List.all_cons, Bool.and_eq_true, this, List.forall_mem_cons, ← h2]
    simp

/-- A table is searched. -/
def searchedIn : Option (Bool × Bool) → NssTbl → Bool
  | none, _ => false
  | some (a, _), .pub => a
  | some (_, b), .priv => b

/-- Tables are left out only if a class asked for is not of them. -/
theorem tables_out : ∀ (tm : Template) (pu pr : Bool) (x : Option (Bool × Bool)), nssTables tm pu pr = .ok x →
    ∀ t, searchedIn (some (pu, pr)) t = true → searchedIn x t = false →
      ∃ a ∈ tm, a.typ = CKA_CLASS ∧ ∃ cls, a.toUlong = .ok cls ∧ nssTblOf cls ≠ some t := by
  intro tm
  induction tm with
  | nil =>
    intro pu pr x h t h1 h2
    injection h with h; subst h
    rw [h1] at h2
    cases h2
  | cons a tm ih =>
    intro pu pr x h t h1 h2
    rw [nssTables] at h
    by_cases hc : a.typ = CKA_CLASS
    · simp only [if_pos hc] at h
      cases hp : a.pval with
      | null n =>
        simp only [hp] at h
        split at h
        · cases h
        obtain ⟨b, hb, hr⟩ := ih _ _ _ h t h1 h2
        exact ⟨b, .tail _ hb, hr⟩
      | data v =>
        simp only [hp] at h
        cases hu : a.toUlong with
        | error r => simp only [hu] at h; cases h
        | ok cls =>
          simp only [hu] at h
          by_cases ht : nssTblOf cls = some t
          · have : ∃ pu' pr', searchedIn (some (pu', pr')) t = true ∧
                (if (pr' && nssSensitive a.typ) = true then (.error .attrSensitive : Res (Option (Bool × Bool))) else nssTables tm pu' pr') = .ok x := by
              cases t with
              | pub => simp only [ht] at h; exact ⟨pu, false, h1, h⟩
              | priv => simp only [ht] at h; exact ⟨false, pr, h1, h⟩
            obtain ⟨pu', pr', h3, h4⟩ := this
            split at h4
            · cases h4
            obtain ⟨b, hb, hr⟩ := ih _ _ _ h4 t h3 h2
            exact ⟨b, .tail _ hb, hr⟩
          · exact ⟨a, .head _, hc, cls, hu, ht⟩
    · simp only [if_neg hc] at h
      split at h
      · cases h
      obtain ⟨b, hb, hr⟩ := ih _ _ _ h t h1 h2
      exact ⟨b, .tail _ hb, hr⟩

theorem tables_row {d : NssDb} (hd : tidy d) {tm : Template} {x : Option (Bool × Bool)} (hx : nssTables tm true true = .ok x) {t : NssTbl}
    (ht : searchedIn x t = false) {r : Nat × NssRow} (hr : r ∈ d.rows t)
    (hall : ∀ a ∈ tm, a.typ = CKA_CLASS → holdsCol r.2 a) : False := by
  obtain ⟨a, ham, hac, cls, hu, hn⟩ := tables_out tm true true x hx t (by cases t <;> rfl) ht
  obtain ⟨b, y, hb, hy, hv⟩ := hall a ham hac
  rw [hac] at hb hy
  obtain ⟨c, hc, hct⟩ := hd.home t r hr b y hb hy
  have : c = cls := by
    unfold Attr.toUlong at hc
    split at hc
    · cases hc
    split at hc
    · cases hc
    injection hc with hc
    unfold CkAttr.toUlong at hu
    split at hu
    · cases hu
    split at hu
    · cases hu
    · rename_i hp
      injection hu with hu
      rw [← hc, ← hu, hv]
      unfold CkAttr.toBuf
      rw [hp]
  subst this
  exact hn hct

/-- The private table is searched only for what is not encrypted. -/
theorem tables_plain : ∀ (tm : Template) (pu pr pu' : Bool), nssTables tm pu pr = .ok (some (pu', true)) → ∀ a ∈ tm, nssSensitive a.typ = false := by
  intro tm
  have mono : ∀ (tm : Template) (pu pr pu' : Bool), nssTables tm pu pr = .ok (some (pu', true)) → pr = true := by
    intro tm
    induction tm with
    | nil => intro pu pr pu' h; injection h with h; injection h with h; injection h with _ h
    | cons a tm ih =>
      intro pu pr pu' h
      rw [nssTables] at h
      split at h
      · cases h
      · cases h
      · rename_i pu1 pr1 hc
        split at h
        · cases h
        have h1 := ih _ _ _ h
        subst h1
        repeat' split at hc
        all_goals first
          | (injection hc with hc; injection hc with hc; injection hc with _ hc; first | exact hc | (cases hc; done) | (cases hc; rfl))
          | (cases hc; done)
          | (cases hc; rfl)
  induction tm with
  | nil => intro pu pr pu' h a ha; cases ha
  | cons b tm ih =>
    intro pu pr pu' h a ha
    rw [nssTables] at h
    split at h
    · cases h
    · cases h
    · rename_i pu1 pr1 hc
      split at h
      · cases h
      rename_i hs
      have h1 := mono _ _ _ _ h
      subst h1
      rcases List.mem_cons.1 ha with hx | hx
      · subst hx
        simpa using hs
      · exact ih _ _ _ h a hx

theorem nssHandles_ok : ∀ (ids : List Bytes) (h : Handles) (l : List Nat) (h' : Handles), HsOk h → nssHandles ids h = (.ok l, h') →
    HsOk h' ∧ (∀ n u, h.get n = some u → h'.get n = some u) ∧ (∀ u ∈ ids, ∃ n ∈ l, h'.get n = some u) ∧ (∀ n ∈ l, ∃ u ∈ ids, h'.get n = some u) := by
  intro ids
  induction ids with
  | nil =>
    intro h l h' ok e
    injection e with e1 e2
    injection e1 with e1
    subst e1; subst e2
    exact ⟨ok, fun _ _ x => x, fun u hu => (by cases hu), fun n hn => (by cases hn)⟩
  | cons u ids ih =>
    intro h l h' ok e
    rw [nssHandles] at e
    have step : ∀ n (h1 : Handles), HsOk h1 → (∀ n u, h.get n = some u → h1.get n = some u) → h1.get n = some u →
        (match nssHandles ids h1 with
          | (.ok l, h) => ((.ok (n :: l), h) : Res (List Nat) × Handles)
          | (.error r, h) => (.error r, h)) = (.ok l, h') →
        HsOk h' ∧ (∀ n u, h.get n = some u → h'.get n = some u) ∧ (∀ x ∈ u :: ids, ∃ n ∈ l, h'.get n = some x) ∧ (∀ n ∈ l, ∃ x ∈ u :: ids, h'.get n = some x) := by
      intro n h1 ok1 keep hn e
      generalize hr : nssHandles ids h1 = r at e
      obtain ⟨r, h2⟩ := r
      cases r with
      | error r => injection e with e _; cases e
      | ok l1 =>
        simp only at e
        injection e with e1 e2
        injection e1 with e1
        subst e1; subst e2
        obtain ⟨a, b, c, d⟩ := ih h1 l1 h2 ok1 hr
        refine ⟨a, fun n u hx => b n u (keep n u hx), ?_, ?_⟩
        · intro x hx
          rcases List.mem_cons.1 hx with hx | hx
          · subst hx; exact ⟨n, .head _, b _ _ hn⟩
          · obtain ⟨m, hm, hg⟩ := c x hx
            exact ⟨m, .tail _ hm, hg⟩
        · intro x hx
          rcases List.mem_cons.1 hx with hx | hx
          · subst hx; exact ⟨u, .head _, b _ _ hn⟩
          · obtain ⟨m, hm, hg⟩ := d x hx
            exact ⟨m, .tail _ hm, hg⟩
    cases hg : h.getByUid u with
    | some n =>
      simp only [hg] at e
      exact step n h ok (fun _ _ x => x) (getByUid_some ok.nd hg) e
    | none =>
      simp only [hg] at e
      obtain ⟨a, b, _, c, _⟩ := hs_insert (D := fun _ => False) ok u
      rw [show h.bump = (h.next, h.bump.2) from rfl] at e
      simp only at e
      generalize h.bump.2.insert h.next u = y at a b c e
      obtain ⟨r, h1⟩ := y
      cases r with
      | error r => injection e with e _; cases e
      | ok v =>
        simp only at a b c e
        exact step h.next h1 a (fun n u hx => b.keep n u hx id) (c trivial).1 e

/-- **C70 (partial).**  A search that succeeds finds exactly the objects, of both tables, whose attributes are read as the values asked for; every one of them
has a handle, and the handles given before stay. -/
theorem C70_exact_partial (e : Env) (s : Nss) (hs h' : Handles) (tm : Template) (l : List Nat) (hd : tidy s.db) (ok : HsOk hs) (ha : ∀ a ∈ tm, askable a)
    (h : s.search e hs tm = (.ok l, h')) :
    HsOk h' ∧ (∀ n u, hs.get n = some u → h'.get n = some u) ∧
    (∀ t, ∀ r ∈ s.db.rows t, (∀ a ∈ tm, holdsCol r.2 a) → ∃ n ∈ l, h'.get n = some (nssIdFormat t r.1)) ∧
    (∀ n ∈ l, ∃ t, ∃ r ∈ s.db.rows t, (∀ a ∈ tm, holdsCol r.2 a) ∧ h'.get n = some (nssIdFormat t r.1)) := by
  have out : ∀ x, nssTables tm true true = .ok x → ∀ t, searchedIn x t = false → ∀ r ∈ s.db.rows t, ¬ ∀ a ∈ tm, holdsCol r.2 a :=
    fun x hx t ht r hr hall => tables_row hd hx ht hr (fun a ha _ => hall a ha)
  unfold Nss.search at h
  split at h
  · cases h
  rename_i ids hids
  obtain ⟨g1, g2, g3, g4⟩ := nssHandles_ok ids hs l h' ok h
  have main : ∀ u, u ∈ ids ↔ ∃ t, ∃ r ∈ s.db.rows t, (∀ a ∈ tm, holdsCol r.2 a) ∧ u = nssIdFormat t r.1 := by
    intro u
    unfold NssDb.searchIds at hids
    split at hids
    · cases hids
    · rename_i hx
      injection hids with hids; subst hids
      refine ⟨fun hu => (by cases hu), ?_⟩
      rintro ⟨t, r, hr, hm, _⟩
      exact absurd hm (out _ hx t (by cases t <;> rfl) r hr)
    · rename_i pu pr hx
      split at hids
      · cases hids
      rename_i ps hps
      split at hids
      · cases hids
      split at hids
      · cases hids
      injection hids with hids; subst hids
      have sel : ∀ t (b : Bool), searchedIn (some (pu, pr)) t = b → ∀ u, u ∈ (if b = true then (nssSelect ps (s.db.rows t)).map (nssIdFormat t) else []) ↔
          ∃ r ∈ s.db.rows t, (∀ a ∈ tm, holdsCol r.2 a) ∧ u = nssIdFormat t r.1 := by
        intro t b hb u
        cases b with
        | false =>
          refine ⟨fun hu => (by cases hu), ?_⟩
          rintro ⟨r, hr, hm, _⟩
          exact absurd hm (out _ hx t hb r hr)
        | true =>
          rw [if_pos rfl]
          unfold nssSelect
          simp only [List.mem_map, List.mem_filter]
          constructor
          · rintro ⟨i, ⟨r, ⟨hr, hp⟩, hi⟩, hu⟩
            subst hi
            exact ⟨r, hr, (params_all ha (hd.full t r hr) hps).1 hp, hu.symm⟩
          · rintro ⟨r, hr, hm, hu⟩
            exact ⟨r.1, ⟨r, ⟨hr, (params_all ha (hd.full t r hr) hps).2 hm⟩, rfl⟩, hu.symm⟩
      rw [List.mem_append]
      have s1 := sel .pub pu rfl u
      have s2 := sel .priv pr rfl u
      constructor
      · rintro (hu | hu)
        · exact ⟨.pub, s1.1 hu⟩
        · exact ⟨.priv, s2.1 hu⟩
      · rintro ⟨t, ht⟩
        cases t with
        | pub => exact .inl (s1.2 ht)
        | priv => exact .inr (s2.2 ht)
  refine ⟨g1, g2, ?_, ?_⟩
  · intro t r hr hm
    exact g3 _ ((main _).2 ⟨t, r, hr, hm, rfl⟩)
  · intro n hn
    obtain ⟨u, hu, hg⟩ := g4 n hn
    obtain ⟨t, r, hr, hm, hx⟩ := (main u).1 hu
    exact ⟨t, r, hr, hm, by rw [hg, hx]⟩

/-! ## The databases this code writes are tidy -/

theorem colVal_full {a : Attr} {v : Bytes} (h : nssColVal a = .ok v) : v ≠ [] := by
  have hnum : ∀ n w, nssNumVal n = .ok w → w ≠ [] := by
    intro n w hw hc
    unfold nssNumVal at hw
    have hl : ∀ n, (toBE 4 n) ≠ [] := fun n hx => by have := toBE_length 4 n; rw [hx] at this; cases this
    split at hw
    · injection hw with hw; exact hl _ (hw.trans hc)
    · split at hw
      · injection hw with hw; exact hl _ (hw.trans hc)
      · cases hw
  unfold nssColVal at h
  split at h
  · injection h with h; subst h; decide
  rename_i hne
  split at h
  · split at h
    · cases h
    · exact hnum _ _ h
  · injection h with h; subst h; decide
  · injection h with h; subst h; decide
  · injection h with h; subst h; exact hne

theorem makeRow_full : ∀ (l : List Attr) (row : NssRow), nssMakeRow l = .ok row → ∀ c, AMap.get row c ≠ some [] := by
  intro l
  induction l with
  | nil => intro row h c hc; injection h with h; subst h; cases hc
  | cons a l ih =>
    intro row h c hc
    rw [nssMakeRow] at h
    split at h
    · exact ih _ h c hc
    split at h
    · cases h
    split at h
    · cases h
    rename_i v hv
    split at h
    · cases h
    rename_i row1 hr
    injection h with h; subst h
    rw [AMap.get] at hc
    split at hc
    · injection hc with hc
      exact colVal_full hv hc
    · exact ih _ hr c hc

theorem encLoop_find {e : Env} : ∀ (ts : List Nat) (i : Nat) (k k' : NssKeys) (o o1 : Obj), nssEncLoop N e ts i k o = (.ok o1, k') →
    ∀ u, u ∉ ts → o1.find u = o.find u := by
  intro ts
  induction ts with
  | nil => intro i k k' o o1 h u _; injection h with h _; injection h with h; subst h; rfl
  | cons t ts ih =>
    intro i k k' o o1 h u hu
    have hu' : u ∉ ts := fun hx => hu (.tail _ hx)
    have hut : u ≠ t := fun hx => hu (hx ▸ .head _)
    rw [nssEncLoop] at h
    split at h
    · exact ih _ _ _ _ _ h u hu'
    split at h
    · cases h
    split at h
    · cases h
    · rename_i o2 ho2
      rw [ih _ _ _ _ _ h u hu', find_setAttr ho2]
      exact if_neg (fun hx => hut hx.symm)

theorem sigLoop_rows {e : Env} {tbl : NssTbl} {id : Nat} {val : Nat → Option Bytes} : ∀ (ts : List Nat) (i : Nat) (k k' : NssKeys) (d d' : NssDb),
    nssSigLoop N e tbl id val ts i k d = (.ok d', k') → ∀ t, d'.rows t = d.rows t := by
  intro ts
  induction ts with
  | nil => intro i k k' d d' h t; injection h with h _; injection h with h; subst h; rfl
  | cons u ts ih =>
    intro i k k' d d' h t
    rw [nssSigLoop] at h
    split at h
    · exact ih _ _ _ _ _ h t
    split at h
    · cases h
    split at h
    · cases h
    · rename_i d1 hd1
      rw [ih _ _ _ _ _ h t]
      unfold NssDb.saveMeta at hd1
      split at hd1
      · cases hd1
      · injection hd1 with hd1; subst hd1
        cases t <;> rfl

theorem rows_setRows (d : NssDb) (t t' : NssTbl) (r : List (Nat × NssRow)) : (d.setRows t r).rows t' = if t' = t then r else d.rows t' := by
  cases t <;> cases t' <;> rfl

/-- What a store does to the rows, whether or not it succeeds. -/
theorem nssStore_rows (e : Env) (s : Nss) (hs : Handles) (o : Obj) :
    (∀ t, (s.store N e hs o).2.1.db.rows t = s.db.rows t) ∨
    ∃ t cls id row o1, nssTblOf cls = some t ∧ Obj.getUlong o1 CKA_CLASS = .ok cls ∧ nssNextId (s.db.rows t) = .ok id ∧ nssMakeRow o1.attrs = .ok row ∧
      ∀ t', (s.store N e hs o).2.1.db.rows t' = if t' = t then s.db.rows t ++ [(id, row)] else s.db.rows t' := by
  unfold Nss.store
  split
  · exact .inl fun _ => rfl
  rename_i cls hcls
  split
  · exact .inl fun _ => rfl
  rename_i t ht
  split
  · exact .inl fun _ => rfl
  split
  · exact .inl fun _ => rfl
  rename_i F hF
  generalize hx : nssEncLoop N (e.sub 0) (if t = .priv then nssSecrets else []) 0 s.keys (delAll o F.ephemeral) = x
  obtain ⟨r, k1⟩ := x
  cases r with
  | error r => exact .inl fun _ => rfl
  | ok o1 =>
    simp only
    have hc1 : o1.getUlong CKA_CLASS = .ok cls := by
      have h1 := encLoop_find _ _ _ _ _ _ hx CKA_CLASS (by
        split
        · exact (by decide +kernel : CKA_CLASS ∉ nssSecrets)
        · exact List.not_mem_nil)
      rw [find_delAll, if_neg (fun hm => absurd (ephemeral_mem hF hm) (by decide))] at h1
      rw [← hcls]
      unfold Obj.getUlong
      rw [h1]
    generalize hy : nssStoreTx N (e.sub 1) s.db k1 t o1 = y
    obtain ⟨r, k2⟩ := y
    cases r with
    | error r => exact .inl fun _ => rfl
    | ok v =>
      obtain ⟨id, d⟩ := v
      unfold nssStoreTx at hy
      split at hy
      · cases hy
      split at hy
      · cases hy
      rename_i id' d1 hd1
      generalize hz : nssSigLoop N ((e.sub 1).sub 2) t id' (fun ty => (o1.find ty).map Attr.value) nssSigned 0 k1 d1 = z at hy
      obtain ⟨r, k3⟩ := z
      cases r with
      | error r => injection hy with hy _; cases hy
      | ok d2 =>
        simp only at hy
        split at hy
        · cases hy
        injection hy with hy hy2
        injection hy with hy
        injection hy with hy1 hy3
        subst hy1; subst hy3
        unfold NssDb.storeObject at hd1
        split at hd1
        · cases hd1
        rename_i id'' hid
        split at hd1
        · cases hd1
        rename_i row hrow
        split at hd1
        · cases hd1
        split at hd1
        · cases hd1
        injection hd1 with hd1
        injection hd1 with hi hd
        subst hi; subst hd
        refine .inr ⟨t, cls, id'', row, o1, ht, hc1, hid, hrow, ?_⟩
        intro t'
        have h2 := sigLoop_rows _ _ _ _ _ _ hz t'
        rw [rows_setRows] at h2
        rw [← h2]
        simp only
        split <;> rfl

theorem tidy_rows {d d' : NssDb} (h : ∀ t, d'.rows t = d.rows t) (ht : tidy d) : tidy d' :=
  ⟨fun t => by rw [h]; exact ht.uniq t, fun t => by rw [h]; exact ht.small t, fun t => by rw [h]; exact ht.full t, fun t => by rw [h]; exact ht.home t⟩

theorem amap_none_keys {m : List (Nat × NssRow)} {x : Nat} (h : AMap.get m x = none) : x ∉ m.map Prod.fst := by
  induction m with
  | nil => exact List.not_mem_nil
  | cons p m ih =>
    obtain ⟨a, b⟩ := p
    rw [AMap.get] at h
    split at h
    · cases h
    · rename_i hne
      intro hm
      rcases List.mem_cons.1 hm with hx | hx
      · exact hne hx.symm
      · exact ih h hx

/-- The empty database is tidy, and storing objects, setting the PIN, logins and logouts keep it so. -/
theorem C70_tidy_empty : tidy ⟨[], [], []⟩ :=
  ⟨fun t => (by cases t <;> exact List.nodup_nil), fun t r hr => (by cases t <;> cases hr), fun t r hr => (by cases t <;> cases hr),
    fun t r hr => (by cases t <;> cases hr)⟩

theorem C70_tidy_store (e : Env) (s : Nss) (hs : Handles) (o : Obj) (h : tidy s.db) : tidy (s.store N e hs o).2.1.db := by
  rcases nssStore_rows (N := N) e s hs o with hr | ⟨t, cls, id, row, o1, ht, hc, hid, hrow, hr⟩
  · exact tidy_rows hr h
  · obtain ⟨n1, n2, n3⟩ := nssNextId_ok _ _ hid
    refine ⟨?_, ?_, ?_, ?_⟩
    · intro t'
      rw [hr]
      split
      · rw [List.map_append, List.nodup_append]
        refine ⟨h.uniq t, by simp, ?_⟩
        intro a ha b hb hab
        simp at hb
        subst hb; subst hab
        exact amap_none_keys n1 ha
      · exact h.uniq t'
    · intro t' r hm
      rw [hr] at hm
      split at hm
      · rcases List.mem_append.1 hm with hm | hm
        · exact h.small t r hm
        · simp at hm; subst hm; simp only; omega
      · exact h.small t' r hm
    · intro t' r hm
      rw [hr] at hm
      split at hm
      · rcases List.mem_append.1 hm with hm | hm
        · exact h.full t r hm
        · simp at hm; subst hm; exact makeRow_full _ _ hrow
      · exact h.full t' r hm
    · intro t' r hm
      rw [hr] at hm
      split at hm
      · rename_i heq
        subst heq
        rcases List.mem_append.1 hm with hm | hm
        · exact h.home _ r hm
        · simp at hm; subst hm
          intro b x hb hx
          refine ⟨cls, ?_, ht⟩
          unfold Obj.getUlong at hc
          split at hc
          · cases hc
          rename_i a ha
          obtain ⟨v, hv, hg⟩ := (nssMakeRow_get hrow CKA_CLASS).2.2 (by decide +kernel) a ha
          simp only at hb
          rw [hg] at hb
          injection hb with hb; subst hb
          have hsm : cls < 2 ^ 32 := by
            unfold nssTblOf at ht
            have k1 : CKO_PRIVATE_KEY < 2 ^ 32 ∧ CKO_SECRET_KEY < 2 ^ 32 ∧ CKO_PUBLIC_KEY < 2 ^ 32 ∧ CKO_CERTIFICATE < 2 ^ 32 ∧ CKO_TRUST < 2 ^ 32 ∧
              CKO_NSS_TRUST < 2 ^ 32 := by decide
            split at ht
            · omega
            · split at ht
              · omega
              · cases ht
          unfold Attr.toUlong at hc
          split at hc
          · cases hc
          rename_i hnum
          split at hc
          · cases hc
          rename_i hlen
          unfold nssColVal at hv
          have hnum : a.atype = .num := by simpa using hnum
          have hul : a.toUlong = .ok cls := by
            unfold Attr.toUlong
            rw [if_neg (by simpa using hnum), if_neg hlen]
            exact hc
          rw [if_neg (fun hx => hlen (by rw [hx]; decide))] at hv
          simp only [hnum, hul] at hv
          unfold nssNumVal at hv
          rw [if_neg (fun hx => by rw [hx] at hsm; exact absurd hsm (by decide)), if_pos hsm] at hv
          injection hv with hv; subst hv
          unfold nssReadCol at hx
          rw [show attrKind CKA_CLASS = some .num from by decide +kernel] at hx
          simp only [if_neg (by decide : CKA_CLASS ≠ CKA_PARAMETER_SET), toBE_length, if_true, fromBE_toBE 4 cls hsm] at hx
          injection hx with hx; subst hx
          exact toUlong_ofUlong CKA_CLASS cls (by omega)
      · exact h.home t' r hm

theorem C70_tidy_pin (e : Env) (s : Nss) (u : User) (pin : Bytes) (c : Bool) (h : tidy s.db) :
    tidy (s.setUserPin N e u pin).2.db ∧ tidy (s.authUser N e u pin c).2.db ∧ tidy s.unauthUser.db := by
  obtain ⟨h1, h2, _⟩ := C67_rows_partial (N := N) e s u pin
  refine ⟨tidy_rows (fun t => by cases t <;> assumption) h, ?_, h⟩
  have : (s.authUser N e u pin c).2.db = s.db := by
    unfold Nss.authUser
    repeat' split
    all_goals rfl
  rw [this]
  exact h

/-! ## An object that was stored -/

theorem idFormat_inj {t t' : NssTbl} {i j : Nat} (hi : i < 2 ^ 32) (hj : j < 2 ^ 32) (h : nssIdFormat t i = nssIdFormat t' j) : t = t' ∧ i = j := by
  have h1 := nssId_parse t i hi
  rw [h, nssId_parse t' j hj] at h1
  injection h1 with h1
  injection h1 with a b
  exact ⟨a.symm, b.symm⟩

theorem nodup_fst {l : List (Nat × NssRow)} (h : (l.map Prod.fst).Nodup) {i : Nat} {r r' : NssRow} (h1 : (i, r) ∈ l) (h2 : (i, r') ∈ l) : r = r' := by
  induction l with
  | nil => cases h1
  | cons p l ih =>
    rw [List.map_cons, List.nodup_cons] at h
    rcases List.mem_cons.1 h1 with a | a <;> rcases List.mem_cons.1 h2 with b | b
    · have := a.trans b.symm
      injection this
    · exact absurd (List.mem_map.2 ⟨_, b, rfl⟩) (by rw [← a] at h; exact h.1)
    · exact absurd (List.mem_map.2 ⟨_, a, rfl⟩) (by rw [← b] at h; exact h.1)
    · exact ih h.2 a b

theorem store_handles {e : Env} {s : Nss} {hs : Handles} {o : Obj} (ok : HsOk hs) : HsOk (s.store N e hs o).2.2 := by
  have ins : ∀ u r h', hs.bump.2.insert hs.bump.1 u = (r, h') → HsOk h' := by
    intro u r h' hx
    have := (hs_insert (D := fun _ => False) ok u).1
    rw [show hs.bump.2.insert hs.next u = (r, h') from hx] at this
    exact this
  unfold Nss.store
  repeat' split
  all_goals first
    | exact ok
    | (rename_i hb _ _ _ hx; injection hb with hb1 hb2; subst hb1; subst hb2; exact ins _ _ _ hx)
    | (rename_i hb _ _ hx; injection hb with hb1 hb2; subst hb1; subst hb2; exact ins _ _ _ hx)

/-- **C70 (partial).**  An object that was stored is found by a search that succeeds exactly if it has the values asked for. -/
theorem C70_stored_partial {e : Env} (he : calmEnv e) (ap : saltsApart e) {m : Bytes} {s s' : Nss} {hs h' : Handles} {o : Obj} {n cls : Nat}
    (hf : fits N m (drawn e) s.keys) (h : s.store N e hs o = (.ok n, s', h')) (hcl : o.getUlong CKA_CLASS = .ok cls)
    (hsto : ∀ t a, o.find t = some a → nssSkippable t = true ∨ nssStorable (sealedIn cls) a) (hd : tidy s.db) (ok : HsOk hs)
    (e2 : Env) (tm : Template) (ha : ∀ a ∈ tm, askable a ∧ a.typ ≠ CKA_OBJECT_VALIDATION_FLAGS) (l : List Nat) (h'' : Handles)
    (hsr : s'.search e2 h' tm = (.ok l, h'')) : n ∈ l ↔ ∀ a ∈ tm, ∃ b, o.find a.typ = some b ∧ b.value = a.toBuf := by
  have hd' : tidy s'.db := by have := C70_tidy_store (N := N) e s hs o hd; rw [h] at this; exact this
  have ok' : HsOk h' := by have := store_handles (N := N) (e := e) (s := s) (o := o) ok; rw [h] at this; exact this
  obtain ⟨cls', t, F, id, o1, row, hcl', htbl, hF, hid, hrow, hrc, hrows, hget, hf1, e1, e2', e3, sg⟩ := nssStore_parts he ap hf h
  rw [hcl] at hcl'
  injection hcl' with hcl'; subst hcl'
  obtain ⟨g1, g2, g3, g4⟩ := C70_exact_partial e2 s' h' h'' tm l hd' ok' (fun a hx => (ha a hx).1) hsr
  have hmem : (id, row) ∈ s'.db.rows t := by rw [hrows]; exact List.mem_append_right _ (.head _)
  have hskip : ∀ a ∈ tm, nssSkippable a.typ = false := by
    intro a hx
    cases hs : nssSkippable a.typ with
    | false => rfl
    | true =>
      exfalso
      have hin : a.typ ∈ nssSkipped := by
        unfold nssSkippable at hs
        split at hs
        · rename_i i hi
          unfold nssSkipped
          refine List.mem_map.2 ⟨i, List.mem_filter.2 ⟨List.mem_of_find?_eq_some hi, hs⟩, ?_⟩
          simpa using List.find?_some hi
        · cases hs
      have hk : ∀ u ∈ nssSkipped, attrKind u = some .ulongArray := by decide +kernel
      have := (ha a hx).1
      unfold askable at this
      rw [hk _ hin] at this
      split at this <;> first | exact this | (rename_i hq _; cases hq) | (rename_i hq; cases hq)
  have same : ∀ u, u ∉ nssSecretsOf t → u ≠ CKA_OBJECT_VALIDATION_FLAGS → o1.find u = o.find u := by
    intro u h1 h2
    rw [e1 u h1, find_delAll, if_neg (fun hm => h2 (ephemeral_mem hF hm))]
  have key : ∀ a ∈ tm, a.typ ∉ nssSecretsOf t → (holdsCol row a ↔ ∃ b, o.find a.typ = some b ∧ b.value = a.toBuf) := by
    intro a hx hns
    have hseal : sealedIn cls a.typ = false := by
      unfold Spec.sealedIn
      by_cases hk : cls = CKO_PRIVATE_KEY ∨ cls = CKO_SECRET_KEY
      · have ht : t = .priv := by
          unfold nssTblOf at htbl
          rw [if_pos hk] at htbl
          injection htbl with htbl
          exact htbl.symm
        cases hsn : nssSensitive a.typ with
        | false => simp
        | true => exact absurd (by unfold nssSecretsOf; rw [if_pos ht]; exact sensitive_mem hsn) hns
      · have h1 : cls ≠ CKO_PRIVATE_KEY := fun hx => hk (.inl hx)
        have h2 : cls ≠ CKO_SECRET_KEY := fun hx => hk (.inr hx)
        simp [h1, h2]
    obtain ⟨_, r2, r3⟩ := nssMakeRow_get hrow a.typ
    have hso := same a.typ hns (ha a hx).2
    have rd : ∀ b, o.find a.typ = some b → ∃ v, AMap.get row a.typ = some v ∧ nssReadCol a.typ v = .ok b := by
      intro b hb
      obtain ⟨v, hv, hg⟩ := r3 (hskip a hx) b (hso.trans hb)
      refine ⟨v, hg, ?_⟩
      have hty : b.typ = a.typ := find_typ hb
      have hst := (hsto _ _ hb).resolve_left (by rw [hskip a hx]; decide)
      have := nssStorable_read hst (by rw [hty]; exact hseal) hv
      rw [hty] at this
      exact this
    constructor
    · rintro ⟨c, x, hc, hx1, hx2⟩
      cases hb : o.find a.typ with
      | none => rw [r2 (hso.trans hb)] at hc; cases hc
      | some b =>
        obtain ⟨v, hv, hr⟩ := rd b hb
        rw [hc] at hv
        injection hv with hv; subst hv
        rw [hx1] at hr
        injection hr with hr; subst hr
        exact ⟨x, rfl, hx2⟩
    · rintro ⟨b, hb, hv⟩
      obtain ⟨v, hg, hr⟩ := rd b hb
      exact ⟨v, b, hg, hr, hv⟩
  have hclassns : CKA_CLASS ∉ nssSecretsOf t := fun hx => (secretsOf_facts t _ hx).1 (by decide)
  have plain : (∀ a ∈ tm, a.typ = CKA_CLASS → holdsCol row a) → ∀ a ∈ tm, a.typ ∉ nssSecretsOf t := by
    intro hcls a hx hin
    have ht : t = .priv := by
      unfold nssSecretsOf at hin
      split at hin
      · assumption
      · cases hin
    subst ht
    unfold Nss.search at hsr
    split at hsr
    · cases hsr
    rename_i ids hids
    unfold NssDb.searchIds at hids
    split at hids
    · cases hids
    · rename_i hy
      exact tables_row hd' hy (t := .priv) rfl hmem hcls
    · rename_i pu pr hy
      cases pr with
      | false => exact tables_row hd' hy (t := .priv) rfl hmem hcls
      | true =>
        have := tables_plain tm true true pu hy a hx
        rw [(secretsOf_facts .priv _ hin).2.2.2] at this
        cases this
  constructor
  · intro hn
    obtain ⟨t', r, hr, hm, hg⟩ := g4 n hn
    have hg2 := g2 n _ hget
    rw [hg] at hg2
    injection hg2 with hg2
    obtain ⟨h1, h2⟩ := idFormat_inj (hd'.small t' r hr) (hd'.small t _ hmem) hg2
    subst h1
    obtain ⟨i, r⟩ := r
    simp only at h2
    subst h2
    have := nodup_fst (hd'.uniq _) hr hmem
    subst this
    intro a hx
    exact (key a hx (plain (fun a hx _ => hm a hx) a hx)).1 (hm a hx)
  · intro hm
    have hp := plain (fun a hx hc => (key a hx (by rw [hc]; exact hclassns)).2 (hm a hx))
    obtain ⟨n', hn', hg⟩ := g3 t (id, row) hmem (fun a hx => (key a hx (hp a hx)).2 (hm a hx))
    rw [g1.inj (g2 n _ hget) hg]
    exact hn'

/-! ## Witnesses -/

/-- The template of the witness: a class, an identifier and a number. -/
def exNssTm : Template := [CkAttr.ofUlong CKA_CLASS CKO_SECRET_KEY, CkAttr.mk' CKA_ID [1, 2], CkAttr.ofUlong CKA_MODULUS_BITS 2048]

theorem exNssTm_ask : ∀ a ∈ exNssTm, askable a ∧ a.typ ≠ CKA_OBJECT_VALIDATION_FLAGS := by
  have num : ∀ t n, attrKind t = some .num → t ≠ CKA_PARAMETER_SET → n < 2 ^ 32 → askable (CkAttr.ofUlong t n) := by
    intro t n h1 h2 h3
    unfold askable
    simp only [h1]
    exact ⟨h2, n, h3, rfl⟩
  intro a ha
  simp only [exNssTm, List.mem_cons, List.not_mem_nil, or_false] at ha
  rcases ha with ha | ha | ha <;> subst ha
  · exact ⟨num _ _ (by decide +kernel) (by decide) (by decide), by decide⟩
  · refine ⟨?_, by decide⟩
    unfold askable
    simp only [show attrKind CKA_ID = some .bytes from by decide +kernel]
    decide
  · exact ⟨num _ _ (by decide +kernel) (by decide) (by decide), by decide⟩

theorem exNssIn_tidy : tidy exNssIn.db :=
  (C70_tidy_pin _ _ _ _ _ (C70_tidy_pin _ _ _ _ false C70_tidy_empty).1).2.1

set_option maxRecDepth 20000 in
/-- Witness of `C70_exact_partial` and `C70_stored_partial`: the key is found by what it has. -/
theorem C70_stored_witness : (exNssFullStored.2.1.search (exCalm 0) exNssFullStored.2.2 exNssTm).1 = .ok [1] ∧
    ((1 : Nat) ∈ [1] ↔ ∀ a ∈ exNssTm, ∃ b, exNssFull.find a.typ = some b ∧ b.value = a.toBuf) := by
  have h1 : exNssFullStored.1 = .ok 1 := by decide +kernel
  have h2 : (exNssFullStored.2.1.search (exCalm 0) exNssFullStored.2.2 exNssTm).1 = .ok [1] := by decide +kernel
  refine ⟨h2, C70_stored_partial (exPlaces_ok 9) exPlaces_apart exNssIn_fits (by rw [← h1] : exNssFullStored = (.ok 1, exNssFullStored.2.1, exNssFullStored.2.2))
    (by decide +kernel : exNssFull.getUlong CKA_CLASS = .ok CKO_SECRET_KEY) exNssFull_storable exNssIn_tidy hsOk_new (exCalm 0) exNssTm exNssTm_ask [1]
    (exNssFullStored.2.1.search (exCalm 0) exNssFullStored.2.2 exNssTm).2 (by rw [← h2])⟩

set_option maxRecDepth 20000 in
/-- It is not found by another identifier. -/
theorem C70_stored_witness2 : (exNssFullStored.2.1.search (exCalm 0) exNssFullStored.2.2 [CkAttr.mk' CKA_ID [1, 3]]).1 = .ok [] := by
  decide +kernel

/-- **C70 is violated.**  The order of the template decides: with the class of certificates first the value may be asked for, with the value first the search is
refused. -/
theorem C70_order_violation (e : Env) (d : NssDb) (v : Bytes) (h : e.fails = none) :
    (∃ l, d.searchIds e [CkAttr.ofUlong CKA_CLASS CKO_CERTIFICATE, CkAttr.mk' CKA_VALUE v] = .ok l) ∧
    d.searchIds e [CkAttr.mk' CKA_VALUE v, CkAttr.ofUlong CKA_CLASS CKO_CERTIFICATE] = .error .attrSensitive := by
  have ht : nssTables [CkAttr.ofUlong CKA_CLASS CKO_CERTIFICATE, CkAttr.mk' CKA_VALUE v] true true = .ok (some (true, false)) := by
    have h1 : CkAttr.toUlong (CkAttr.ofUlong CKA_CLASS CKO_CERTIFICATE) = .ok CKO_CERTIFICATE := by decide
    have h2 : nssTblOf CKO_CERTIFICATE = some .pub := by decide
    simp only [nssTables, if_true, h1, h2, Bool.false_and, Bool.false_eq_true, if_false, if_neg (by decide : CKA_VALUE ≠ CKA_CLASS)]
  have ht2 : nssTables [CkAttr.mk' CKA_VALUE v, CkAttr.ofUlong CKA_CLASS CKO_CERTIFICATE] true true = .error .attrSensitive := by
    have h3 : nssSensitive CKA_VALUE = true := by decide +kernel
    simp only [nssTables, if_neg (by decide : CKA_VALUE ≠ CKA_CLASS), h3, Bool.and_self, if_true]
  constructor
  · have h1 : nssParamVal .num (CkAttr.ofUlong CKA_CLASS CKO_CERTIFICATE) = .ok (toBE 4 CKO_CERTIFICATE) := by decide
    have h2 : ∃ w, nssParamVal .bytes (CkAttr.mk' CKA_VALUE v) = .ok w := by
      unfold nssParamVal
      split
      · exact ⟨_, rfl⟩
      · exact ⟨_, rfl⟩
    obtain ⟨w, h2⟩ := h2
    have k1 : attrKind CKA_CLASS = some .num := by decide +kernel
    have k2 : attrKind CKA_VALUE = some .bytes := by decide +kernel
    have c1 : nssCols.contains CKA_CLASS = true := by decide +kernel
    have c2 : nssCols.contains CKA_VALUE = true := by decide +kernel
    unfold NssDb.searchIds
    simp only [ht, nssParams, k1, k2, h1, h2, List.any_cons, List.any_nil, c1, c2, h]
    exact ⟨_, rfl⟩
  · unfold NssDb.searchIds
    simp only [ht2]

/-- **C70 is violated.**  A search for allowed mechanisms, which the storage of this token otherwise supports, fails in the database. -/
theorem C70_column_violation (e : Env) (d : NssDb) (v : Bytes) :
    d.searchIds e [CkAttr.mk' CKA_ALLOWED_MECHANISMS v] = .error nssSqlBad := by
  have h3 : nssSensitive CKA_ALLOWED_MECHANISMS = false := by decide +kernel
  have k2 : attrKind CKA_ALLOWED_MECHANISMS = some .ulongArray := by decide +kernel
  have h2 : ∃ w, nssParamVal .ulongArray (CkAttr.mk' CKA_ALLOWED_MECHANISMS v) = .ok w := by
    unfold nssParamVal
    split
    · exact ⟨_, rfl⟩
    · exact ⟨_, rfl⟩
  obtain ⟨w, h2⟩ := h2
  have c2 : nssCols.contains CKA_ALLOWED_MECHANISMS = false := by decide +kernel
  unfold NssDb.searchIds
  simp only [nssTables, if_neg (by decide : CKA_ALLOWED_MECHANISMS ≠ CKA_CLASS), h3, Bool.and_false, Bool.false_eq_true, if_false, nssParams, k2, h2,
    List.any_cons, List.any_nil, c2]
  rfl

end Kry

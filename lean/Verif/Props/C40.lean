import Verif.Proofs.Basic
import Verif.Proofs.NssParse
import Verif.Model.NssConfig

/-!
# C40: the configuration string of the NSS storage

"Parsing any configuration string returns a configuration or CKR_ARGUMENTS_BAD; flags and quoted
values are read as written."

The second half is `C40_read`: a configuration written down as a list of parameters, each with its
name in any spelling, its quotes and its value, is read back as it was written.  It holds for values
without a backslash and for at most two flags in a list of flags.  Beyond that the code goes wrong:
`C40_three_violation`, `C40_backslash_violation`, `C40_escape_violation`, `C40_short_violation`.

The first half is `C40_result_partial`, which lists what else can come out of the parser and of which
strings; `C40_three_violation` and `C40_number_violation` show that both exceptions are real.
-/

namespace Kry

namespace Spec

/-- How the documentation of NSS spells a parameter, in lower case. -/
def nssName : NssKey → String
  | .text .configdir => "configdir"
  | .text .updatedir => "updatedir"
  | .text .updateid => "updateid"
  | .text .secmod => "secmod"
  | .text .manufacturerid => "manufacturerid"
  | .text .librarydescription => "librarydescription"
  | .text .certprefix => "certprefix"
  | .text .keyprefix => "keyprefix"
  | .text .cryptotokendescription => "cryptotokendescription"
  | .text .dbtokendescription => "dbtokendescription"
  | .text .fipstokendescription => "fipstokendescription"
  | .text .cryptoslotdescription => "cryptoslotdescription"
  | .text .dbslotdescription => "dbslotdescription"
  | .text .fipsslotdescription => "fipsslotdescription"
  | .text .updatetokendescription => "updatetokendescription"
  | .minpwlen => "minpwlen"
  | .flags => "flags"

/-- How the documentation spells a flag, in lower case. -/
def flagName : NssFlag → String
  | .readonly => "readonly"
  | .nomoddb => "nomoddb"
  | .nocertdb => "nocertdb"
  | .nokeydb => "nokeydb"
  | .forceopen => "forceopen"
  | .passwordrequired => "passwordrequired"
  | .optimizespace => "optimizespace"

/-- One parameter as the administrator writes it: the name as spelled, which parameter it is, the
opening and closing quote if any, and the value between them. -/
structure NssEntry where
  raw : Bytes
  key : NssKey
  quote : Option (UInt8 × UInt8)
  value : Bytes

/-- `name=value`, `name='value'`, `name="value"`, `name=(value)`, … -/
def entryText (e : NssEntry) : Bytes :=
  e.raw ++ 61 :: (match e.quote with
    | none => e.value
    | some (o, c) => o :: (e.value ++ [c]))

/-- The parameters, one blank between two of them. -/
def configText : List NssEntry → Bytes
  | [] => []
  | [e] => entryText e
  | e :: l => entryText e ++ 32 :: configText l

/-- The pairs of quotes of the NSS format: `'…'`, `"…"`, `(…)`, `{…}`, `[…]`, `<…>`. -/
def quotes : List (UInt8 × UInt8) := [(39, 39), (34, 34), (40, 41), (123, 125), (91, 93), (60, 62)]

/-- The pieces of a text between its commas. -/
def pieces : Bytes → List Bytes
  | [] => [[]]
  | b :: t =>
    if b = 44 then [] :: pieces t
    else match pieces t with
      | [] => [[b]]
      | p :: ps => (b :: p) :: ps

/-- The number a row of digits denotes, its last digit first. -/
def numberRev : Bytes → Nat
  | [] => 0
  | d :: t => (d.toNat - 48) + 10 * numberRev t

/-- The number a row of decimal digits denotes. -/
def number (v : Bytes) : Nat := numberRev v.reverse

/-- What the value of a parameter may be: a number for the least PIN length, one or two known flags
for the flags, anything for a text. -/
def valueFits (lower : Bytes → Bytes) (e : NssEntry) : Prop :=
  match e.key with
  | .text _ => True
  | .minpwlen => e.value ≠ [] ∧ (∀ b ∈ e.value, 48 ≤ b ∧ b ≤ 57) ∧ number e.value < 2 ^ 64
  | .flags => (pieces e.value).length ≤ 2 ∧
      ∀ p ∈ pieces e.value, p ≠ [] ∧ ∃ f, lower p = asciiOf (flagName f)

/-- A parameter written by the rules: its name is spelled in any mixture of cases, no backslash
occurs in it, a quoted value does not contain the closing quote, and an unquoted value contains no
blank and does not start like a quoted one. -/
structure EntryOk (lower : Bytes → Bytes) (e : NssEntry) : Prop where
  name : lower e.raw = asciiOf (nssName e.key)
  equals : (61 : UInt8) ∉ e.raw
  escName : (92 : UInt8) ∉ e.raw
  escValue : (92 : UInt8) ∉ e.value
  quoted : ∀ o c, e.quote = some (o, c) → (o, c) ∈ quotes ∧ c ∉ e.value
  bare : e.quote = none → (32 : UInt8) ∉ e.value ∧ ∀ q ∈ quotes, e.value.head? ≠ some q.1
  fits : valueFits lower e

/-- A configuration written by the rules.  When the last value is not quoted it has at least two
bytes (see `C40_short_violation`). -/
structure ConfigOk (lower : Bytes → Bytes) (l : List NssEntry) : Prop where
  each : ∀ e ∈ l, EntryOk lower e
  last : ∀ e, l.getLast? = some e → e.quote = none → 2 ≤ e.value.length

/-- The value given last to a parameter. -/
def nssGiven (l : List NssEntry) (k : NssKey) : Option Bytes :=
  ((l.filter (fun e => e.key == k)).getLast?).map (·.value)

/-- Some list of flags of the configuration names the flag. -/
def flagGiven (lower : Bytes → Bytes) (l : List NssEntry) (f : NssFlag) : Prop :=
  ∃ e ∈ l, e.key = .flags ∧ ∃ p ∈ pieces e.value, lower p = asciiOf (flagName f)

/-- The configuration says what the list of parameters says. -/
structure Says (lower : Bytes → Bytes) (l : List NssEntry) (c : NssCfg) : Prop where
  texts : ∀ t, c.text t = nssGiven l (.text t)
  pinLen : c.minPinLen = ((nssGiven l .minpwlen).map number).getD 0
  flags : ∀ f, c.has f = true ↔ flagGiven lower l f

end Spec

open Spec

/-! ### Lists of parameters -/

theorem nssGiven_cons (e : NssEntry) (l : List NssEntry) (k : NssKey) :
    nssGiven (e :: l) k = (nssGiven l k).or (if e.key = k then some e.value else none) := by
  unfold nssGiven
  by_cases h : e.key = k
  · simp only [List.filter_cons, h, beq_self_eq_true, if_true]
    cases hl : l.filter (fun e => e.key == k) with
    | nil => simp
    | cons a t => simp [List.getLast?_cons]
  · simp [List.filter_cons, h]

theorem number_foldl (v : Bytes) :
    v.foldl (fun n b => 10 * n + (b.toNat - 48)) 0 = number v := by
  unfold number
  rw [List.foldl_eq_foldr_reverse]
  induction v.reverse with
  | nil => rfl
  | cons d t ih => simp only [List.foldr_cons, numberRev, ih]; omega

theorem parseUsize_number {v : Bytes} (h1 : v ≠ []) (h2 : ∀ b ∈ v, 48 ≤ b ∧ b ≤ 57)
    (h3 : number v < 2 ^ 64) : parseUsize v = .ok (number v) := by
  cases v with
  | nil => exact absurd rfl h1
  | cons a t =>
    have ha : a ≠ 43 := by
      intro h
      subst h
      have := (h2 43 (by simp)).1
      exact absurd this (by decide)
    have hd : dropPlus (a :: t) = a :: t := by simp [dropPlus, ha]
    have hall : (a :: t).all (fun b => 48 ≤ b && b ≤ 57) = true := by
      rw [List.all_eq_true]
      intro b hb
      simp [h2 b hb]
    unfold parseUsize
    simp only [hd]
    rw [if_neg h1, if_pos hall, number_foldl, if_pos h3]

theorem pieces_ne_nil (v : Bytes) : pieces v ≠ [] := by
  cases v with
  | nil => simp [pieces]
  | cons b t =>
    simp only [pieces]
    split
    · simp
    · split <;> simp

theorem pieces_one {v a : Bytes} (h : pieces v = [a]) : v = a ∧ (44 : UInt8) ∉ a := by
  induction v generalizing a with
  | nil => simp only [pieces, List.cons.injEq, and_true] at h; subst h; simp
  | cons b t ih =>
    simp only [pieces] at h
    split at h
    · injection h with _ h2
      exact absurd h2 (pieces_ne_nil t)
    · rename_i hb
      split at h
      · rename_i h0; exact absurd h0 (pieces_ne_nil t)
      · rename_i p ps hp
        injection h with h1 h2
        subst h2
        obtain ⟨e1, e2⟩ := ih hp
        subst h1
        subst e1
        simp only [List.mem_cons, not_or, true_and]
        exact ⟨fun h => hb h.symm, e2⟩

theorem pieces_two {v a b : Bytes} (h : pieces v = [a, b]) :
    v = a ++ 44 :: b ∧ (44 : UInt8) ∉ a ∧ (44 : UInt8) ∉ b := by
  induction v generalizing a with
  | nil => simp [pieces] at h
  | cons x t ih =>
    simp only [pieces] at h
    split at h
    · rename_i hx
      injection h with h1 h2
      obtain ⟨e1, e2⟩ := pieces_one h2
      subst h1; subst hx; subst e1
      simp [e2]
    · rename_i hx
      split at h
      · rename_i h0; exact absurd h0 (pieces_ne_nil t)
      · rename_i p ps hp
        injection h with h1 h2
        subst h2
        obtain ⟨e1, e2, e3⟩ := ih hp
        subst h1
        subst e1
        refine ⟨rfl, ?_, e3⟩
        simp only [List.mem_cons, not_or]
        exact ⟨fun h => hx h.symm, e2⟩

theorem nssFlags_get (f : NssFlag) : AMap.get nssFlags (asciiOf (flagName f)) = some f := by
  cases f <;> decide +kernel

theorem nssKeys_get (k : NssKey) : AMap.get nssKeys (asciiOf (nssName k)) = some k := by
  cases k with
  | text t => cases t <;> decide +kernel
  | minpwlen => decide +kernel
  | flags => decide +kernel

/-- One flag. -/
theorem parseFlags_one (lower : Bytes → Bytes) {a : Bytes} {f : NssFlag} (c : NssCfg)
    (h0 : a ≠ []) (h1 : (44 : UInt8) ∉ a) (h2 : lower a = asciiOf (flagName f)) :
    parseFlags lower a c = .ok ⟨c.texts, c.minPinLen, f :: c.flags⟩ := by
  have hl : 0 < a.length := List.length_pos_iff.2 h0
  obtain ⟨n, hn⟩ : ∃ n, a.length = n + 1 := ⟨a.length - 1, by omega⟩
  unfold parseFlags
  rw [hn]
  unfold parseFlagsFrom
  rw [if_neg (by omega)]
  simp only [List.drop_zero, posOf_none h1, Option.getD_none, sliceOf, Nat.zero_le, Nat.le_refl,
    and_self, if_true, Nat.sub_zero, List.take_length, h2, nssFlags_get]
  unfold parseFlagsFrom
  rw [if_pos (by omega)]

/-- Two flags. -/
theorem parseFlags_two (lower : Bytes → Bytes) {a b : Bytes} {f g : NssFlag} (c : NssCfg)
    (hb : b ≠ []) (a1 : (44 : UInt8) ∉ a) (b1 : (44 : UInt8) ∉ b)
    (h1 : lower a = asciiOf (flagName f)) (h2 : lower b = asciiOf (flagName g)) :
    parseFlags lower (a ++ 44 :: b) c = .ok ⟨c.texts, c.minPinLen, g :: f :: c.flags⟩ := by
  have hl : 0 < b.length := List.length_pos_iff.2 hb
  have hlen : (a ++ 44 :: b).length = a.length + b.length + 1 := by simp; omega
  obtain ⟨n, hn⟩ : ∃ n, a.length + b.length + 1 = n + 2 := ⟨a.length + b.length - 1, by omega⟩
  unfold parseFlags
  rw [hlen, hn]
  unfold parseFlagsFrom
  rw [if_neg (by omega)]
  simp only [List.drop_zero, posOf_append a1, Option.getD_some]
  have s1 : sliceOf (a ++ 44 :: b) 0 a.length = .ok a := by
    unfold sliceOf
    rw [if_pos (by omega)]
    simp
  simp only [s1, h1, nssFlags_get]
  unfold parseFlagsFrom
  rw [if_neg (by omega)]
  have hdrop : (a ++ 44 :: b).drop (a.length + 1) = b := by
    rw [List.drop_append]
    simp
  have s2 : sliceOf (a ++ 44 :: b) (a.length + 1) (a ++ 44 :: b).length = .ok b := by
    unfold sliceOf
    rw [if_pos (by omega), hdrop, hlen]
    congr 1
    rw [List.take_of_length_le (by omega)]
  simp only [hdrop, posOf_none b1, Option.getD_none, s2, h2, nssFlags_get]
  unfold parseFlagsFrom
  rw [if_pos (by omega)]

/-- What assigning a value written by the rules does to the configuration. -/
theorem assign_ok (lower : Bytes → Bytes) (e : NssEntry) (c : NssCfg) (he : EntryOk lower e) :
    ∃ c', assign lower (lower e.raw) e.value c = .ok c' ∧
      (∀ t, c'.text t = (if e.key = .text t then some e.value else c.text t)) ∧
      (c'.minPinLen = if e.key = .minpwlen then number e.value else c.minPinLen) ∧
      (∀ f, c'.has f = true ↔ (e.key = .flags ∧ ∃ p ∈ pieces e.value, lower p = asciiOf (flagName f)) ∨
        c.has f = true) := by
  have hfit := he.fits
  unfold valueFits at hfit
  unfold assign
  rw [he.name, nssKeys_get]
  cases hk : e.key with
  | text t =>
    refine ⟨_, rfl, ?_, ?_, ?_⟩
    · intro t'
      by_cases h : t = t'
      · subst h; simp [NssCfg.text]
      · simp [NssCfg.text, h, beq_iff_eq]
    · simp
    · intro f; simp [NssCfg.has]
  | minpwlen =>
    rw [hk] at hfit
    simp only [parseUsize_number hfit.1 hfit.2.1 hfit.2.2]
    refine ⟨_, rfl, ?_, ?_, ?_⟩
    · intro t'; simp [NssCfg.text]
    · simp
    · intro f; simp [NssCfg.has]
  | flags =>
    rw [hk] at hfit
    obtain ⟨hlen, hall⟩ := hfit
    have inj : ∀ {f g : NssFlag}, asciiOf (flagName f) = asciiOf (flagName g) → f = g := by
      intro f g h
      have := nssFlags_get f
      rw [h, nssFlags_get] at this
      exact (Option.some.inj this).symm
    cases hp : pieces e.value with
    | nil => exact absurd hp (pieces_ne_nil _)
    | cons a t =>
      cases t with
      | nil =>
        obtain ⟨e1, e2⟩ := pieces_one hp
        obtain ⟨h0, f, hf⟩ := hall a (by simp [hp])
        simp only
        rw [e1, parseFlags_one lower c h0 e2 hf]
        refine ⟨_, rfl, ?_, ?_, ?_⟩
        · intro t'; simp [NssCfg.text]
        · simp
        · intro g
          simp only [NssCfg.has, List.contains_cons, Bool.or_eq_true, beq_iff_eq, true_and,
            List.mem_singleton, exists_eq_left, hf]
          constructor
          · rintro (h | h)
            · subst h; exact .inl rfl
            · exact .inr h
          · rintro (h | h)
            · exact .inl (inj h).symm
            · exact .inr h
      | cons b t =>
        cases t with
        | nil =>
          obtain ⟨e1, e2, e3⟩ := pieces_two hp
          obtain ⟨-, f, hf⟩ := hall a (by simp [hp])
          obtain ⟨h0, g, hg⟩ := hall b (by simp [hp])
          simp only
          rw [e1, parseFlags_two lower c h0 e2 e3 hf hg]
          refine ⟨_, rfl, ?_, ?_, ?_⟩
          · intro t'; simp [NssCfg.text]
          · simp
          · intro k
            simp only [NssCfg.has, List.contains_cons, Bool.or_eq_true, beq_iff_eq, true_and,
              List.mem_cons, List.not_mem_nil, or_false, exists_eq_or_imp, exists_eq_left, hf, hg]
            constructor
            · rintro (h | h | h)
              · subst h; exact .inl (.inr rfl)
              · subst h; exact .inl (.inl rfl)
              · exact .inr h
            · rintro ((h | h) | h)
              · exact .inr (.inl (inj h).symm)
              · exact .inl (inj h).symm
              · exact .inr (.inr h)
        | cons d t => rw [hp] at hlen; simp only [List.length_cons] at hlen; omega

/-! ### Reading one parameter -/

theorem closing_quotes {o c : UInt8} (h : (o, c) ∈ quotes) : closing o = c ∧ c ≠ 32 ∧ o ≠ 92 := by
  simp only [quotes, List.mem_cons, Prod.mk.injEq, List.not_mem_nil, or_false] at h
  rcases h with h | h | h | h | h | h <;> (rw [h.1, h.2]; decide)

theorem closing_bare {b : UInt8} (h : ∀ q ∈ quotes, b ≠ q.1) : closing b = 32 := by
  simp only [quotes, List.mem_cons, List.not_mem_nil, or_false, forall_eq_or_imp, forall_eq] at h
  obtain ⟨h1, h2, h3, h4, h5, h6⟩ := h
  simp [closing, h1, h2, h3, h4, h5, h6]

/-- No backslash among the first bytes of a text. -/
theorem no_esc {l r : Bytes} (h : (92 : UInt8) ∉ l) :
    ∀ j : Nat, j < l.length → (l ++ r)[j]? ≠ some 92 := by
  intro j hj he
  rw [List.getElem?_append_left hj] at he
  exact h (List.mem_of_getElem? he)

/-- Reading a parameter written by the rules, followed by nothing or by a blank and more: the value is
assigned, and what is read next is what follows the blank. -/
theorem parse_entry (lower : Bytes → Bytes) (e : NssEntry) (he : EntryOk lower e) (tail : Bytes)
    (ht : (tail = [] ∧ (e.quote = none → 2 ≤ e.value.length)) ∨ ∃ r, r ≠ [] ∧ tail = 32 :: r)
    (c c' : NssCfg) (ha : assign lower (lower e.raw) e.value c = .ok c') :
    ∃ used, parseParameter lower (entryText e ++ tail) c = .ok (c', used) ∧
      (entryText e ++ tail).drop used = tail.drop 1 := by
  cases hq : e.quote with
  | some q =>
    obtain ⟨o, cl⟩ := q
    obtain ⟨hmem, hcl⟩ := he.quoted o cl hq
    obtain ⟨k1, k2, k3⟩ := closing_quotes hmem
    have hargs : entryText e ++ tail = e.raw ++ 61 :: (o :: (e.value ++ cl :: tail)) := by
      simp [entryText, hq]
    have hargs2 : entryText e ++ tail = (e.raw ++ [61, o]) ++ (e.value ++ cl :: tail) := by
      simp [hargs]
    have hargs3 : entryText e ++ tail = (e.raw ++ [61, o] ++ e.value) ++ (cl :: tail) := by
      simp [hargs]
    have hlen : (entryText e ++ tail).length = e.raw.length + 2 + e.value.length + 1 + tail.length := by
      rw [hargs]; simp; omega
    generalize hA : entryText e ++ tail = args at hargs hargs2 hargs3 hlen ⊢
    have p1 : posOf 61 args = some e.raw.length := by rw [hargs]; exact posOf_append he.equals
    have p2 : args.take e.raw.length = e.raw := by rw [hargs]; simp
    have p3 : args[e.raw.length + 1]? = some o := by
      rw [hargs, List.getElem?_append_right (by omega)]
      have : e.raw.length + 1 - e.raw.length = 1 := by omega
      rw [this]; rfl
    have p4 : args.drop (e.raw.length + 2) = e.value ++ cl :: tail := by
      rw [hargs2, List.drop_append_of_le_length (by simp)]
      simp
    have p5 : escapes args e.value.length = 0 := by
      refine escapes_zero (fun j hj => ?_)
      rw [hargs3]
      refine no_esc ?_ j (by simp; omega)
      simp [he.escName, he.escValue, Ne.symm k3]
    have p6 : findEnd args cl args.length (e.raw.length + 2) = e.raw.length + 2 + e.value.length := by
      obtain ⟨n, hn⟩ : ∃ n, args.length = n + 1 := ⟨args.length - 1, by omega⟩
      rw [hn]
      unfold findEnd
      rw [if_neg (by omega)]
      simp [p4, posOf_append hcl, p5]
    have p7 : sliceOf args (e.raw.length + 2) (e.raw.length + 2 + e.value.length) = .ok e.value := by
      unfold sliceOf
      rw [if_pos (by omega), p4]
      congr 1
      have : e.raw.length + 2 + e.value.length - (e.raw.length + 2) = e.value.length := by omega
      rw [this]; simp
    refine ⟨e.raw.length + 2 + e.value.length + 2, ?_, ?_⟩
    · unfold parseParameter
      simp only [p1]
      rw [if_neg (by omega)]
      simp only [p2, p3, Option.getD_some, k1, ne_eq, k2, not_false_eq_true, if_true, p6]
      rw [if_neg (by omega), if_pos (by omega)]
      simp only [p7, ha]
    · have : e.raw.length + 2 + e.value.length + 2 = (e.raw ++ [61, o] ++ e.value).length + 2 := by
        simp; omega
      rw [hargs3, this, ← List.drop_drop, List.drop_left]
      rfl
  | none =>
    obtain ⟨hsp, hhead⟩ := he.bare hq
    have hargs : entryText e ++ tail = e.raw ++ 61 :: (e.value ++ tail) := by
      simp [entryText, hq]
    have hargs2 : entryText e ++ tail = (e.raw ++ [61]) ++ (e.value ++ tail) := by
      simp [hargs]
    have hargs3 : entryText e ++ tail = (e.raw ++ [61] ++ e.value) ++ tail := by
      simp [hargs]
    have hlen : (entryText e ++ tail).length = e.raw.length + 1 + e.value.length + tail.length := by
      rw [hargs]; simp; omega
    have hlong : e.raw.length + 2 < (entryText e ++ tail).length := by
      rcases ht with ⟨h1, h2⟩ | ⟨r, h1, h2⟩
      · have := h2 hq; omega
      · have : 0 < r.length := List.length_pos_iff.2 h1
        rw [hlen, h2, List.length_cons]; omega
    generalize hA : entryText e ++ tail = args at hargs hargs2 hargs3 hlen hlong ⊢
    have p1 : posOf 61 args = some e.raw.length := by rw [hargs]; exact posOf_append he.equals
    have p2 : args.take e.raw.length = e.raw := by rw [hargs]; simp
    have p3 : closing (args[e.raw.length + 1]?.getD 0) = 32 := by
      have : args[e.raw.length + 1]? = (e.value ++ tail)[0]? := by
        rw [hargs2, List.getElem?_append_right (by simp)]
        simp
      rw [this]
      cases hv : e.value with
      | nil =>
        rcases ht with ⟨h1, h2⟩ | ⟨r, h1, h2⟩
        · have := h2 hq; rw [hv] at this; simp at this
        · rw [h2]; rfl
      | cons a t =>
        simp only [List.cons_append, List.getElem?_cons_zero, Option.getD_some]
        refine closing_bare (fun q hqm hab => hhead q hqm ?_)
        rw [hv, List.head?_cons, hab]
    have p4 : args.drop (e.raw.length + 1) = e.value ++ tail := by
      rw [hargs2, List.drop_append_of_le_length (by simp)]
      simp
    have p5 : escapes args e.value.length = 0 := by
      refine escapes_zero (fun j hj => ?_)
      rw [hargs3]
      refine no_esc ?_ j (by simp; omega)
      simp [he.escName, he.escValue]
    have p6 : findEnd args 32 args.length (e.raw.length + 1) = e.raw.length + 1 + e.value.length := by
      obtain ⟨n, hn⟩ : ∃ n, args.length = n + 1 := ⟨args.length - 1, by omega⟩
      rw [hn]
      unfold findEnd
      rw [if_neg (by omega)]
      rcases ht with ⟨h1, h2⟩ | ⟨r, h1, h2⟩
      · rw [p4, h1, List.append_nil, posOf_none hsp]
        rw [hlen, h1]; simp
      · simp [p4, h2, posOf_append hsp, p5]
    have p7 : sliceOf args (e.raw.length + 1) (e.raw.length + 1 + e.value.length) = .ok e.value := by
      unfold sliceOf
      rw [if_pos (by omega), p4]
      congr 1
      have : e.raw.length + 1 + e.value.length - (e.raw.length + 1) = e.value.length := by omega
      rw [this]; simp
    have hd : args.drop (e.raw.length + 1 + e.value.length) = tail := by
      have : e.raw.length + 1 + e.value.length = (e.raw ++ [61] ++ e.value).length := by simp; omega
      rw [hargs3, this, List.drop_left]
    refine ⟨if e.raw.length + 1 + e.value.length < args.length then e.raw.length + 1 + e.value.length + 1
      else e.raw.length + 1 + e.value.length, ?_, ?_⟩
    · unfold parseParameter
      simp only [p1]
      rw [if_neg (by omega)]
      simp only [p2, p3, ne_eq, not_true_eq_false, if_false, and_false, p6, p7, ha]
    · rcases ht with ⟨h1, h2⟩ | ⟨r, h1, h2⟩
      · rw [if_neg (by rw [hlen, h1]; simp), hd, h1]; rfl
      · rw [if_pos (by rw [hlen, h2]; simp), ← List.drop_drop, hd]

theorem configText_cons (e : NssEntry) (l : List NssEntry) (h : l ≠ []) :
    configText (e :: l) = entryText e ++ 32 :: configText l := by
  cases l with
  | nil => exact absurd rfl h
  | cons a t => rfl

theorem entryText_ne_nil (e : NssEntry) : entryText e ≠ [] := by simp [entryText]

theorem configText_ne_nil {l : List NssEntry} (h : l ≠ []) : configText l ≠ [] := by
  cases l with
  | nil => exact absurd rfl h
  | cons e t =>
    by_cases ht : t = []
    · subst ht; exact entryText_ne_nil e
    · rw [configText_cons e t ht]; simp

/-- Reading the rest of a configuration written by the rules. -/
theorem fromArgs_read (lower : Bytes → Bytes) (l : List NssEntry) (fuel : Nat) (c : NssCfg)
    (hl : ConfigOk lower l) (hf : l.length ≤ fuel) :
    ∃ c', fromArgsLoop lower fuel (configText l) c = .ok c' ∧
      (∀ t, c'.text t = (nssGiven l (.text t)).or (c.text t)) ∧
      (c'.minPinLen = ((nssGiven l .minpwlen).map number).getD c.minPinLen) ∧
      (∀ f, c'.has f = true ↔ flagGiven lower l f ∨ c.has f = true) := by
  induction l generalizing fuel c with
  | nil =>
    refine ⟨c, ?_, ?_, ?_, ?_⟩
    · unfold fromArgsLoop; simp [configText]
    · intro t; simp [nssGiven]
    · simp [nssGiven]
    · intro f; simp [flagGiven]
  | cons e l ih =>
    have he := hl.each e (by simp)
    obtain ⟨c1, h1, h2, h3, h4⟩ := assign_ok lower e c he
    obtain ⟨fuel, rfl⟩ : ∃ n, fuel = n + 1 := ⟨fuel - 1, by simp only [List.length_cons] at hf; omega⟩
    have hl' : ConfigOk lower l := by
      refine ⟨fun x hx => hl.each x (by simp [hx]), fun x hx => hl.last x ?_⟩
      cases l with
      | nil => cases hx
      | cons a t => rw [List.getLast?_cons_cons]; exact hx
    obtain ⟨c', i1, i2, i3, i4⟩ := ih fuel c1 hl' (by simp only [List.length_cons] at hf; omega)
    have hstep : ∃ tail, configText (e :: l) = entryText e ++ tail ∧ tail.drop 1 = configText l ∧
        ((tail = [] ∧ (e.quote = none → 2 ≤ e.value.length)) ∨ ∃ r, r ≠ [] ∧ tail = 32 :: r) := by
      by_cases ht : l = []
      · subst ht
        exact ⟨[], by simp [configText], rfl, .inl ⟨rfl, hl.last e rfl⟩⟩
      · exact ⟨32 :: configText l, configText_cons e l ht, rfl,
          .inr ⟨_, configText_ne_nil ht, rfl⟩⟩
    obtain ⟨tail, t1, t2, t3⟩ := hstep
    obtain ⟨used, u1, u2⟩ := parse_entry lower e he tail t3 c c1 h1
    refine ⟨c', ?_, ?_, ?_, ?_⟩
    · unfold fromArgsLoop
      rw [if_neg (by simp [t1, entryText_ne_nil]), t1]
      simp only [u1, u2, t2, i1]
    · intro t
      rw [i2, nssGiven_cons, h2]
      cases nssGiven l (.text t) with
      | some v => simp
      | none => by_cases hk : e.key = .text t <;> simp [hk]
    · rw [i3, nssGiven_cons, h3]
      cases nssGiven l .minpwlen with
      | some v => simp
      | none => by_cases hk : e.key = .minpwlen <;> simp [hk]
    · intro f
      rw [i4, h4]
      simp only [flagGiven, List.mem_cons, exists_eq_or_imp]
      constructor
      · rintro (h | h | h)
        · exact .inl (.inr h)
        · exact .inl (.inl h)
        · exact .inr h
      · rintro ((h | h) | h)
        · exact .inr (.inl h)
        · exact .inl h
        · exact .inr (.inr h)

theorem configText_length (l : List NssEntry) : l.length ≤ (configText l).length := by
  induction l with
  | nil => simp
  | cons e l ih =>
    by_cases ht : l = []
    · subst ht
      have := List.length_pos_iff.2 (entryText_ne_nil e)
      simp only [configText, List.length_cons, List.length_nil]; omega
    · rw [configText_cons e l ht]
      simp only [List.length_cons, List.length_append]; omega

/-- **C40, reading back.**  A configuration written by the rules is accepted, and each setting is the
one written: every text parameter has the value given to it last, the least PIN length is the number
given last, and exactly the flags named are set. -/
theorem C40_read (lower : Bytes → Bytes) (l : List NssEntry) (hl : ConfigOk lower l) :
    ∃ c, nssFromArgs lower (configText l) = .ok c ∧ Says lower l c := by
  obtain ⟨c, h1, h2, h3, h4⟩ := fromArgs_read lower l _ .default hl (configText_length l)
  refine ⟨c, h1, ⟨fun t => ?_, h3, fun f => ?_⟩⟩
  · rw [h2]; simp [NssCfg.default, NssCfg.text]
  · rw [h4]; simp [NssCfg.default, NssCfg.has]

/-! ### What else can come out -/

theorem AMap_get_keys_name {name : Bytes} {k : NssKey} (h : AMap.get nssKeys name = some k) :
    name = asciiOf (nssName k) := by
  have hall : ∀ p ∈ nssKeys, p.1 = asciiOf (nssName p.2) := by decide +kernel
  exact hall _ (AMap.get_mem h)

/-- What `parse_parameter` can answer. -/
theorem parseParameter_error (lower : Bytes → Bytes) (args : Bytes) (c : NssCfg) {r : Rv}
    (h : parseParameter lower args c = .error r) :
    r = .argumentsBad ∨
    (r = .generalError ∧ ∃ raw b, args = raw ++ 61 :: b ∧ lower raw = asciiOf "minpwlen") ∨
    (r = .panic ∧ ∃ raw b, args = raw ++ 61 :: b ∧ lower raw = asciiOf "flags" ∧ 2 ≤ b.count 44) := by
  unfold parseParameter at h
  cases hp : posOf 61 args with
  | none => rw [hp] at h; cases h; exact .inl rfl
  | some eq =>
    obtain ⟨e1, -, e3⟩ := posOf_some hp
    rw [hp] at h
    simp only at h
    split at h
    · cases h; exact .inl rfl
    rename_i hlen
    generalize hv : (if closing (args[eq + 1]?.getD 0) ≠ 32 then eq + 2 else eq + 1) = valx at h
    have hvx : eq + 1 ≤ valx ∧ valx ≤ args.length := by rw [← hv]; split <;> omega
    have hr := findEnd_range args (closing (args[eq + 1]?.getD 0)) args.length valx hvx.2
    generalize findEnd args (closing (args[eq + 1]?.getD 0)) args.length valx = idx at h hr
    split at h
    · cases h; exact .inl rfl
    have hs : sliceOf args valx idx = .ok ((args.drop valx).take (idx - valx)) := by
      unfold sliceOf; rw [if_pos hr]
    simp only [hs] at h
    split at h
    · rename_i r' ha
      cases h
      unfold assign at ha
      cases hk : AMap.get nssKeys (lower (args.take eq)) with
      | none => rw [hk] at ha; cases ha; exact .inl rfl
      | some k =>
        have hn := AMap_get_keys_name hk
        rw [hk] at ha
        cases k with
        | text t => cases ha
        | minpwlen =>
          simp only at ha
          split at ha
          · rename_i r2 hu
            cases ha
            have : r = .generalError := by
              unfold parseUsize at hu
              simp only at hu
              repeat' split at hu
              all_goals first
                | (cases hu; rfl)
                | cases hu
            exact .inr (.inl ⟨this, args.take eq, args.drop (eq + 1), e1, hn⟩)
          · cases ha
        | flags =>
          simp only at ha
          rcases parseFlagsFrom_error lower _ _ 0 c (by omega) ha with h1 | ⟨h1, h2, -⟩
          · exact .inl h1
          · refine .inr (.inr ⟨h1, args.take eq, args.drop (eq + 1), e1, hn, ?_⟩)
            have h2 := h2 rfl
            refine Nat.le_trans h2 ?_
            have hsub : List.Sublist ((args.drop valx).take (idx - valx)) (args.drop (eq + 1)) := by
              refine (List.take_sublist _ _).trans ?_
              have : valx = (eq + 1) + (valx - (eq + 1)) := by omega
              rw [this, ← List.drop_drop]
              exact List.drop_sublist _ _
            exact hsub.count_le _
    · cases h

/-- Each parameter read moves forward. -/
theorem parseParameter_used (lower : Bytes → Bytes) (args : Bytes) (c c' : NssCfg) {used : Nat}
    (h : parseParameter lower args c = .ok (c', used)) : 1 ≤ used := by
  unfold parseParameter at h
  cases hp : posOf 61 args with
  | none => rw [hp] at h; cases h
  | some eq =>
    rw [hp] at h
    simp only at h
    split at h
    · cases h
    generalize hv : (if closing (args[eq + 1]?.getD 0) ≠ 32 then eq + 2 else eq + 1) = valx at h
    have hvx : eq + 1 ≤ valx ∧ valx ≤ args.length := by rw [← hv]; split <;> omega
    have hr := findEnd_range args (closing (args[eq + 1]?.getD 0)) args.length valx hvx.2
    generalize findEnd args (closing (args[eq + 1]?.getD 0)) args.length valx = idx at h hr
    split at h
    · cases h
    split at h
    · cases h
    · split at h
      · cases h
      · simp only [Except.ok.injEq, Prod.mk.injEq] at h
        rw [← h.2]
        repeat' split
        all_goals omega

theorem fromArgsLoop_error (lower : Bytes → Bytes) (fuel : Nat) (rest : Bytes) (c : NssCfg) {r : Rv}
    (hf : rest.length ≤ fuel) (h : fromArgsLoop lower fuel rest c = .error r) :
    r = .argumentsBad ∨
    (r = .generalError ∧ ∃ a raw b, rest = a ++ raw ++ 61 :: b ∧ lower raw = asciiOf "minpwlen") ∨
    (r = .panic ∧ ∃ a raw b, rest = a ++ raw ++ 61 :: b ∧ lower raw = asciiOf "flags" ∧
      2 ≤ b.count 44) := by
  induction fuel generalizing rest c with
  | zero =>
    have : rest = [] := List.length_eq_zero_iff.1 (by omega)
    unfold fromArgsLoop at h
    rw [if_pos this] at h
    cases h
  | succ fuel ih =>
    unfold fromArgsLoop at h
    split at h
    · cases h
    rename_i hne
    simp only at h
    split at h
    · rename_i r' hp
      cases h
      rcases parseParameter_error lower rest c hp with h1 | ⟨h1, raw, b, h2, h3⟩ | ⟨h1, raw, b, h2, h3, h4⟩
      · exact .inl h1
      · exact .inr (.inl ⟨h1, [], raw, b, by simpa using h2, h3⟩)
      · exact .inr (.inr ⟨h1, [], raw, b, by simpa using h2, h3, h4⟩)
    · rename_i c' used hp
      have hu := parseParameter_used lower rest c c' hp
      have hpos : 0 < rest.length := List.length_pos_iff.2 hne
      have hcut := (List.take_append_drop used rest).symm
      rcases ih (rest.drop used) c' (by rw [List.length_drop]; omega) h with
        h1 | ⟨h1, a, raw, b, h2, h3⟩ | ⟨h1, a, raw, b, h2, h3, h4⟩
      · exact .inl h1
      · refine .inr (.inl ⟨h1, rest.take used ++ a, raw, b, ?_, h3⟩)
        exact hcut.trans (by rw [h2]; simp)
      · refine .inr (.inr ⟨h1, rest.take used ++ a, raw, b, ?_, h3, h4⟩)
        exact hcut.trans (by rw [h2]; simp)

/-- **C40, what comes out.**  Any byte string gives a configuration or `CKR_ARGUMENTS_BAD`, except
that a parameter `minPwLen` somewhere in it may give `CKR_GENERAL_ERROR`, and a parameter `flags`
with at least two commas after it may abort the process.  In particular the parser always comes to an
end, and a string with at most one comma never aborts it. -/
theorem C40_result_partial (lower : Bytes → Bytes) (args : Bytes) :
    (∃ c, nssFromArgs lower args = .ok c) ∨
    nssFromArgs lower args = .error .argumentsBad ∨
    (nssFromArgs lower args = .error .generalError ∧
      ∃ a raw b, args = a ++ raw ++ 61 :: b ∧ lower raw = asciiOf "minpwlen") ∨
    (nssFromArgs lower args = .error .panic ∧
      ∃ a raw b, args = a ++ raw ++ 61 :: b ∧ lower raw = asciiOf "flags" ∧ 2 ≤ b.count 44) := by
  cases h : nssFromArgs lower args with
  | ok c => exact .inl ⟨c, rfl⟩
  | error r =>
    rcases fromArgsLoop_error lower _ args _ (Nat.le_refl _) h with h1 | ⟨h1, h2⟩ | ⟨h1, h2⟩
    · exact .inr (.inl (by rw [h1]))
    · exact .inr (.inr (.inl ⟨by rw [h1], h2⟩))
    · exact .inr (.inr (.inr ⟨by rw [h1], h2⟩))

/-! ### Where the code goes wrong -/

/-- All flags. -/
def allFlags : List NssFlag :=
  [.readonly, .nomoddb, .nocertdb, .nokeydb, .forceopen, .passwordrequired, .optimizespace]

theorem allFlags_all (f : NssFlag) : f ∈ allFlags := by cases f <;> decide

/-- A parameter with three flags. -/
def threeFlags (f g h : NssFlag) : Bytes :=
  asciiOf "flags=" ++ asciiOf (flagName f) ++ 44 :: (asciiOf (flagName g) ++ 44 :: asciiOf (flagName h))

set_option maxRecDepth 20000 in
/-- **C40, violated.**  No three flags are ever read: `parse_flags` takes the position of the second
comma, counted from the second flag, for a position in the whole list
(`src/storage/nssdb/config.rs:113-117`).  The configuration is refused, or the process aborts. -/
theorem C40_three_violation (f g h : NssFlag) :
    nssFromArgs id (threeFlags f g h) = .error .panic ∨
    nssFromArgs id (threeFlags f g h) = .error .argumentsBad := by
  have hall : ∀ f ∈ allFlags, ∀ g ∈ allFlags, ∀ h ∈ allFlags,
      nssFromArgs id (threeFlags f g h) = .error .panic ∨
      nssFromArgs id (threeFlags f g h) = .error .argumentsBad := by decide +kernel
  exact hall f (allFlags_all f) g (allFlags_all g) h (allFlags_all h)

/-- The abort is real: `flags=readonly,nomoddb,nocertdb`. -/
theorem C40_panic_violation :
    nssFromArgs id (threeFlags .readonly .nomoddb .nocertdb) = .error .panic := by decide +kernel

/-- **C40, violated.**  A least PIN length that is no number is answered `CKR_GENERAL_ERROR`. -/
theorem C40_number_violation :
    nssFromArgs id (asciiOf "minpwlen=ten") = .error .generalError := by decide +kernel

set_option maxRecDepth 20000 in
/-- **C40, violated.**  A backslash in a value, not in front of the closing quote, can hide the closing
quote: the search for escapes looks at the wrong place (`src/storage/nssdb/config.rs:174`).  In
`configdir='\\abcdefghijk' secmod=''` the directory read is `\\abcdefghijk' secmod=`. -/
theorem C40_backslash_violation :
    ∃ c, nssFromArgs id (asciiOf "configdir='\\abcdefghijk' secmod=''") = .ok c ∧
      c.text .configdir = some (asciiOf "\\abcdefghijk' secmod=") ∧ c.text .secmod = none :=
  ⟨⟨[(.configdir, asciiOf "\\abcdefghijk' secmod=")], 0, []⟩, by decide +kernel, by decide +kernel,
    by decide +kernel⟩

set_option maxRecDepth 20000 in
/-- **C40, violated.**  A closing quote escaped by a backslash is not taken for escaped:
`configdir='it\\'s'` is refused. -/
theorem C40_escape_violation :
    nssFromArgs id (asciiOf "configdir='it\\'s'") = .error .argumentsBad := by decide +kernel

/-- **C40, violated.**  An unquoted last value of one byte is refused: `minPwLen=8`, whatever the
digit. -/
theorem C40_short_violation (lower : Bytes → Bytes) (b : UInt8) :
    nssFromArgs lower (asciiOf "minPwLen=" ++ [b]) = .error .argumentsBad := by
  have hl : (asciiOf "minPwLen=" ++ [b]).length = 10 := by
    rw [List.length_append]
    have : (asciiOf "minPwLen=").length = 9 := by decide +kernel
    rw [this]; rfl
  have hp : posOf 61 (asciiOf "minPwLen=" ++ [b]) = some 8 := by
    have : asciiOf "minPwLen=" ++ [b] = asciiOf "minPwLen" ++ 61 :: [b] := by
      have : asciiOf "minPwLen=" = asciiOf "minPwLen" ++ [61] := by decide +kernel
      rw [this]; simp
    rw [this]
    have h8 : (8 : Nat) = (asciiOf "minPwLen").length := by decide +kernel
    rw [h8]
    exact posOf_append (by decide +kernel)
  unfold nssFromArgs
  rw [hl]
  unfold fromArgsLoop
  rw [if_neg (by intro h; rw [h] at hl; cases hl)]
  unfold parseParameter
  simp only [hp]
  rw [if_pos (by omega)]

/-! ### Non-vacuity -/

/-- Lower case of ASCII letters. -/
def exLower (v : Bytes) : Bytes := v.map (fun b => if 65 ≤ b ∧ b ≤ 90 then b + 32 else b)

/-- `configDir='sql:/etc/pki' secmod=(mod.db) minPwLen=12 configdir="/home/x" Flags=readOnly,noKeyDB`. -/
def exEntries : List NssEntry :=
  [⟨asciiOf "configDir", .text .configdir, some (39, 39), asciiOf "sql:/etc/pki"⟩,
   ⟨asciiOf "secmod", .text .secmod, some (40, 41), asciiOf "mod.db"⟩,
   ⟨asciiOf "minPwLen", .minpwlen, none, asciiOf "12"⟩,
   ⟨asciiOf "configdir", .text .configdir, some (34, 34), asciiOf "/home/x"⟩,
   ⟨asciiOf "Flags", .flags, none, asciiOf "readOnly,noKeyDB"⟩]

set_option maxRecDepth 20000 in
/-- The configuration above is written by the rules. -/
theorem exEntries_ok : ConfigOk exLower exEntries := by
  refine ⟨?_, ?_⟩
  · intro e he
    simp only [exEntries, List.mem_cons, List.not_mem_nil, or_false] at he
    rcases he with h | h | h | h | h <;> subst h
    all_goals
      refine ⟨by decide +kernel, by decide +kernel, by decide +kernel, by decide +kernel, ?_, ?_, ?_⟩
    · rintro o c h; cases h; decide +kernel
    · intro h; cases h
    · exact trivial
    · rintro o c h; cases h; decide +kernel
    · intro h; cases h
    · exact trivial
    · intro o c h; cases h
    · intro _; decide +kernel
    · exact ⟨by decide +kernel, by decide +kernel, by decide +kernel⟩
    · rintro o c h; cases h; decide +kernel
    · intro h; cases h
    · exact trivial
    · intro o c h; cases h
    · intro _; decide +kernel
    · refine ⟨by decide +kernel, ?_⟩
      have : pieces (asciiOf "readOnly,noKeyDB") = [asciiOf "readOnly", asciiOf "noKeyDB"] := by
        decide +kernel
      intro p hp
      simp only [this, List.mem_cons, List.not_mem_nil, or_false] at hp
      rcases hp with h | h <;> subst h
      · exact ⟨by decide +kernel, .readonly, by decide +kernel⟩
      · exact ⟨by decide +kernel, .nokeydb, by decide +kernel⟩
  · intro e he _
    simp only [exEntries] at he
    cases he
    decide +kernel

set_option maxRecDepth 20000 in
/-- It is read as `C40_read` says. -/
example : configText exEntries =
    asciiOf "configDir='sql:/etc/pki' secmod=(mod.db) minPwLen=12 configdir=\"/home/x\" Flags=readOnly,noKeyDB" ∧
    (nssGiven exEntries (.text .configdir) = some (asciiOf "/home/x")) ∧
    ∃ c, nssFromArgs exLower (configText exEntries) = .ok c ∧ c.text .configdir = some (asciiOf "/home/x") ∧
      c.minPinLen = 12 ∧ c.has .readonly ∧ c.has .nokeydb ∧ ¬ c.has .nomoddb := by
  refine ⟨by decide +kernel, by decide +kernel,
    ⟨[(.configdir, asciiOf "/home/x"), (.secmod, asciiOf "mod.db"), (.configdir, asciiOf "sql:/etc/pki")], 12,
      [.nokeydb, .readonly]⟩, ?_, ?_, rfl, ?_, ?_, ?_⟩ <;> decide +kernel

end Kry

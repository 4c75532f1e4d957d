import Verif.Spec.Objects

/-!
# What exists
-/

namespace Kry.Spec

/-- The token in slot `i` keeps an object with the stored rows `rows`. -/
def storedRows (s : St) (i : Nat) (rows : List (Nat × DbVal)) : Prop :=
  ∃ sl id, AMap.get s.slots i = some sl ∧ (id, rows) ∈ sl.token.store.db.objs

/-- Every object of `s'`, in memory or stored, was there in `s`, as it is. -/
def noNew (s s' : St) : Prop := ∀ i,
  (∀ n o, sessionObj s' i n = some o → sessionObj s i n = some o) ∧
  (∀ rows, storedRows s' i rows → storedRows s i rows)

/-- With these inputs the mechanism makes public keys that may be destroyed. -/
def pairsGo (M : Mechs) (m : Nat) (p : Bytes) (pub priv : Template) : Prop :=
  ∀ e a b, M.genPair e m p pub priv = .ok (a, b) → a.isDestroyable = true

/-- With these inputs the mechanism derives keys that may be destroyed, and as many as its parameter announces. -/
def derivesGo (M : Mechs) (m : Nat) (p : Bytes) (tm : Template) : Prop :=
  ∀ e k extra o os, M.derive e m p k extra tm = .ok (o :: os) →
    (∀ o' ∈ o :: os, o'.isDestroyable = true) ∧
    (os ≠ [] → manyKeys m → m ≠ CKM_SP800_108_DOUBLE_PIPELINE_KDF ∧ M.adkCount m p = .ok os.length)

end Kry.Spec

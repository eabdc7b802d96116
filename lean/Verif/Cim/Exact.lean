import Verif.Cim.Links
/-
The exact effect of a statement on a to-one reference whose opposite end is a collection, and on a
many-to-many collection.
-/
namespace Verif
namespace Cim
open Py Hp Spec

/-- A statement about a to-one reference has no effect: it has a partner, for a forwarding reference one
it shows. -/
def keepsA (A : Alts) (it : Item) (o : Option Addr) : Bool :=
  match A it.obj it.name with
  | some (_, p) => o.any p
  | none => o.isSome

theorem o2oSome_one_other {E : Ends} {V : View} (C : Consistent E V) {a n i b x r j}
    (ea : E a n = some (.one2one, i)) (eb : E b i = some (.one2one, n)) (hne : ¬ (a = b ∧ n = i))
    (e : E x r = some (.one2many, j)) : (V.o2oSome a n i b).one x r = V.one x r := by
  have h1 : ¬ (x = a ∧ r = n) := by rintro ⟨rfl, rfl⟩; rw [ea] at e; cases e
  have h2 : ¬ (x = b ∧ r = i) := by rintro ⟨rfl, rfl⟩; rw [eb] at e; cases e
  have h3 : ¬ (V.one a n = some x ∧ r = i) := by
    rintro ⟨ho, rfl⟩
    have := (C.one_one a n _ x ea ho).1
    rw [this] at e; cases e
  have h4 : ¬ ((V.o2oNone a n i).one b i = some x ∧ r = n) := by
    rintro ⟨ho, rfl⟩
    rw [o2oNone_one] at ho
    split at ho
    · cases ho
    · have := (C.one_one b i _ x eb ho).1
      rw [this] at e; cases e
  rw [o2oSome_eq C ea eb hne, setOne_one, if_neg h2, setOne_one, if_neg h1, o2oNone_one,
    if_neg (by rintro (h | h); exact h2 h; exact h4 h), o2oNone_one,
    if_neg (by rintro (h | h); exact h1 h; exact h3 h)]

theorem o2m_many_other {E : Ends} {V : View} (C : Consistent E V) {a n i b x r j}
    (ea : E a n = some (.one2many, i)) (eb : E b i = some (.many2one, n))
    (e : E x r = some (.many2many, j)) : (V.o2m a n i (some b)).many x r = V.many x r := by
  rw [o2m_many C ea (by rintro _ ⟨⟩; exact eb), if_neg, if_neg, List.append_nil]
  · rintro ⟨⟨⟩, rfl⟩; rw [eb] at e; cases e
  · rintro ⟨ho, rfl⟩
    have := (C.one_many a n _ x ea ho).1
    rw [this] at e; cases e

section
variable {E : Ends} {A : Alts} {d : Dict} {V : View} (C : Consistent E V)
  (hreg : ∀ a n k i, E a n = some (k, i) → regular k = true ∧ i ≠ n)
  {it : Item} {u : Str} {b : Addr} {k : Kind} {j : Str}
  (hA : A it.obj it.name ≠ none → k = .one2many) (ht : it.target = some u) (hu : d.lookup u = some b)
  (e : E it.obj (canon A it.obj it.name) = some (k, j)) (eb : E b j = some (k.opp, canon A it.obj it.name))
include C hreg hA ht hu e eb

/-- The four kinds of statements. -/
theorem step_cases :
    (k = .one2many ∧ stepView E A d V it =
      if keepsA A it (V.one it.obj (canon A it.obj it.name)) then V
      else V.o2m it.obj (canon A it.obj it.name) j (some b)) ∨
    (k = .many2one ∧ canon A it.obj it.name = it.name ∧
      stepView E A d V it = V.o2m b j (canon A it.obj it.name) (some it.obj)) ∨
    (k = .many2many ∧ canon A it.obj it.name = it.name ∧
      stepView E A d V it = V.m2mAdd it.obj (canon A it.obj it.name) j b) ∨
    (k = .one2one ∧ canon A it.obj it.name = it.name ∧
      (stepView E A d V it = V ∨ stepView E A d V it = V.o2oSome it.obj (canon A it.obj it.name) j b)) := by
  obtain ⟨hr, -⟩ := hreg _ _ _ _ e
  cases ha : A it.obj it.name with
  | some q =>
    obtain ⟨m, p⟩ := q
    have hk := hA (by rw [ha]; simp)
    refine .inl ⟨hk, ?_⟩
    rw [canon_some ha] at e ⊢
    rw [stepView_alt ht hu ha e]
    simp only [keepsA, ha]
  | none =>
    rw [canon_none ha] at e ⊢
    rw [stepView_ref ht hu e ha]
    cases k <;> simp only [regular, Bool.false_eq_true] at hr
    case one2many =>
      refine .inl ⟨rfl, ?_⟩
      simp only [View.give, View.assign, keepsA, ha]
      cases V.one it.obj it.name <;> simp
    case many2one => exact .inr (.inl ⟨rfl, rfl, rfl⟩)
    case many2many => exact .inr (.inr (.inl ⟨rfl, rfl, rfl⟩))
    case one2one =>
      refine .inr (.inr (.inr ⟨rfl, rfl, ?_⟩))
      simp only [View.give, View.assign]
      split
      · exact .inr rfl
      · exact .inl rfl

theorem step_toOne {x r i} (ex : E x r = some (.one2many, i)) :
    (stepView E A d V it).one x r =
      if it.obj = x ∧ canon A it.obj it.name = r then (if keepsA A it (V.one x r) then V.one x r else some b)
      else if b = x ∧ canon A it.obj it.name = i ∧ E it.obj i = some (.many2one, r) then some it.obj
      else V.one x r := by
  obtain ⟨hr, hni⟩ := hreg _ _ _ _ e
  rcases step_cases C hreg hA ht hu e eb with ⟨rfl, h⟩ | ⟨rfl, hn, h⟩ | ⟨rfl, hn, h⟩ | ⟨rfl, hn, h⟩
  · rw [h]
    have no : ¬ (b = x ∧ canon A it.obj it.name = i ∧ E it.obj i = some (.many2one, r)) := by
      rintro ⟨-, rfl, h3⟩
      rw [e] at h3; cases h3
    by_cases h1 : it.obj = x ∧ canon A it.obj it.name = r
    · obtain ⟨rfl, rfl⟩ := h1
      rw [if_pos (c := it.obj = it.obj ∧ _) ⟨rfl, rfl⟩]
      split
      · rfl
      · rw [o2m_one, if_pos ⟨rfl, rfl⟩]
    · rw [if_neg h1, if_neg no]
      split
      · rfl
      · rw [o2m_one, if_neg (fun hh => h1 ⟨hh.1.symm, hh.2.symm⟩)]
  · rw [h, o2m_one]
    have no : ¬ (it.obj = x ∧ canon A it.obj it.name = r) := by
      rintro ⟨rfl, rfl⟩
      rw [e] at ex; cases ex
    rw [if_neg no]
    by_cases h1 : x = b ∧ r = j
    · obtain ⟨rfl, rfl⟩ := h1
      have eb : E x r = some (.one2many, _) := eb
      rw [eb] at ex; cases ex
      rw [if_pos ⟨rfl, rfl⟩, if_pos ⟨rfl, rfl, e⟩]
    · rw [if_neg h1, if_neg]
      rintro ⟨rfl, h2, h3⟩
      rw [← h2, e] at h3
      cases h3
      exact h1 ⟨rfl, rfl⟩
  · rw [h, m2mAdd_one, if_neg, if_neg]
    · rintro ⟨-, h2, h3⟩
      rw [← h2, e] at h3; cases h3
    · rintro ⟨rfl, rfl⟩
      rw [e] at ex; cases ex
  · have : (stepView E A d V it).one x r = V.one x r := by
      rcases h with h | h
      · rw [h]
      · rw [h]
        exact o2oSome_one_other C e eb (fun hh => hni hh.2.symm) ex
    rw [this, if_neg, if_neg]
    · rintro ⟨-, h2, h3⟩
      rw [← h2, e] at h3; cases h3
    · rintro ⟨rfl, rfl⟩
      rw [e] at ex; cases ex

theorem step_m2m {x r i} (ex : E x r = some (.many2many, i)) :
    (stepView E A d V it).many x r =
      if it.obj = x ∧ canon A it.obj it.name = r then V.many x r ++ [b]
      else if b = x ∧ canon A it.obj it.name = i ∧ E it.obj i = some (.many2many, r) then
        (if it.obj ∈ V.many x r then V.many x r else V.many x r ++ [it.obj])
      else V.many x r := by
  obtain ⟨hr, hni⟩ := hreg _ _ _ _ e
  have quiet : k ≠ .many2many → (stepView E A d V it).many x r = V.many x r →
      (stepView E A d V it).many x r =
      if it.obj = x ∧ canon A it.obj it.name = r then V.many x r ++ [b]
      else if b = x ∧ canon A it.obj it.name = i ∧ E it.obj i = some (.many2many, r) then
        (if it.obj ∈ V.many x r then V.many x r else V.many x r ++ [it.obj])
      else V.many x r := by
    intro hk hq
    rw [hq, if_neg, if_neg]
    · rintro ⟨-, h2, h3⟩
      rw [← h2, e] at h3
      exact hk (Prod.mk.inj (Option.some.inj h3)).1
    · rintro ⟨rfl, rfl⟩
      rw [e] at ex
      exact hk (Prod.mk.inj (Option.some.inj ex)).1
  rcases step_cases C hreg hA ht hu e eb with ⟨rfl, h⟩ | ⟨rfl, hn, h⟩ | ⟨rfl, hn, h⟩ | ⟨rfl, hn, h⟩
  · refine quiet nofun ?_
    rw [h]
    split
    · rfl
    · exact o2m_many_other C e eb ex
  · refine quiet nofun ?_
    rw [h]
    exact o2m_many_other C eb e ex
  · have eb : E b j = some (.many2many, canon A it.obj it.name) := eb
    rw [h, m2mAdd_many' V (fun hh => hni hh.2.symm)]
    by_cases h1 : it.obj = x ∧ canon A it.obj it.name = r
    · obtain ⟨rfl, rfl⟩ := h1
      rw [if_pos ⟨rfl, rfl⟩, if_pos ⟨rfl, rfl⟩]
    · rw [if_neg (fun hh => h1 ⟨hh.1.symm, hh.2.symm⟩), if_neg h1]
      by_cases h2 : x = b ∧ r = j
      · obtain ⟨rfl, rfl⟩ := h2
        rw [eb] at ex; cases ex
        rw [if_pos (c := x = x ∧ _) ⟨rfl, rfl⟩, if_pos (c := x = x ∧ _ ∧ _) ⟨rfl, rfl, e⟩]
      · rw [if_neg h2, if_neg]
        rintro ⟨rfl, h3, h4⟩
        rw [← h3, e] at h4
        cases h4
        exact h2 ⟨rfl, rfl⟩
  · refine quiet nofun ?_
    rcases h with h | h
    · rw [h]
    · rw [h, o2oSome_eq C e eb (fun hh => hni hh.2.symm)]
      simp only [setOne_many, o2oNone_many]

theorem step_m2o {x r i} (ex : E x r = some (.many2one, i)) :
    (stepView E A d V it).many x r =
      if canon A it.obj it.name = i ∧ E it.obj i = some (.one2many, r) then
        (if keepsA A it (V.one it.obj i) then V.many x r
          else (V.many x r).filter (· ≠ it.obj) ++ if b = x then [it.obj] else [])
      else if canon A it.obj it.name = r ∧ E it.obj r = some (.many2one, i) then
        (V.many x r).filter (· ≠ b) ++ if it.obj = x then [b] else []
      else V.many x r := by
  obtain ⟨hr, hni⟩ := hreg _ _ _ _ e
  have drop : ∀ y, V.one y i ≠ some x → (V.many x r).filter (· ≠ y) = V.many x r := by
    intro y hy
    rw [List.filter_eq_self]
    intro z hz
    simp only [ne_eq, decide_not, Bool.not_eq_eq_eq_not, Bool.not_true, decide_eq_false_iff_not]
    rintro rfl
    exact hy (C.many_one x r i _ ex hz).2
  rcases step_cases C hreg hA ht hu e eb with ⟨rfl, h⟩ | ⟨rfl, hn, h⟩ | ⟨rfl, hn, h⟩ | ⟨rfl, hn, h⟩
  · have eb : E b j = some (.many2one, canon A it.obj it.name) := eb
    rw [h]
    by_cases h1 : canon A it.obj it.name = i ∧ E it.obj i = some (.one2many, r)
    · rw [if_pos h1]
      obtain ⟨rfl, h1⟩ := h1
      rw [e] at h1; cases h1
      split
      · rfl
      · rw [o2m_many C e (by rintro _ ⟨⟩; exact eb)]
        simp only [Option.some.injEq, and_true]
        split
        · rfl
        · rename_i hh
          rw [drop _ hh]
    · have h2 : ¬ (canon A it.obj it.name = r ∧ E it.obj r = some (.many2one, i)) := by
        rintro ⟨rfl, h2⟩
        rw [e] at h2; cases h2
      rw [if_neg h1, if_neg h2]
      split
      · rfl
      · have k1 : ¬ (V.one it.obj (canon A it.obj it.name) = some x ∧ r = j) := by
          rintro ⟨ho, rfl⟩
          have := (C.one_many _ _ _ _ e ho).1
          rw [this] at ex; cases ex
          exact h1 ⟨rfl, e⟩
        have k2 : ¬ (some b = some x ∧ r = j) := by
          rintro ⟨⟨⟩, rfl⟩
          rw [eb] at ex; cases ex
          exact h1 ⟨rfl, e⟩
        rw [o2m_many C e (by rintro _ ⟨⟩; exact eb), if_neg k1, if_neg k2, List.append_nil]
  · have eb : E b j = some (.one2many, canon A it.obj it.name) := eb
    rw [h, if_neg (by rintro ⟨rfl, h2⟩; rw [e] at h2; cases h2),
      o2m_many C eb (by rintro _ ⟨⟩; exact e)]
    by_cases h1 : canon A it.obj it.name = r ∧ E it.obj r = some (.many2one, i)
    · rw [if_pos h1]
      obtain ⟨rfl, h1⟩ := h1
      rw [e] at h1; cases h1
      simp only [Option.some.injEq, and_true]
      split
      · rfl
      · rename_i hh
        rw [drop _ hh]
    · have k1 : ¬ (V.one b j = some x ∧ r = canon A it.obj it.name) := by
        rintro ⟨ho, rfl⟩
        have := (C.one_many _ _ _ _ eb ho).1
        rw [this] at ex; cases ex
        exact h1 ⟨rfl, e⟩
      have k2 : ¬ (some it.obj = some x ∧ r = canon A it.obj it.name) := by
        rintro ⟨⟨⟩, rfl⟩
        exact h1 ⟨rfl, ex⟩
      rw [if_neg h1, if_neg k1, if_neg k2, List.append_nil]
  · have eb : E b j = some (.many2many, canon A it.obj it.name) := eb
    rw [h, m2mAdd_many' V (fun hh => hni hh.2.symm), if_neg, if_neg, if_neg, if_neg]
    · rintro ⟨rfl, h2⟩; rw [e] at h2; cases h2
    · rintro ⟨rfl, h2⟩; rw [e] at h2; cases h2
    · rintro ⟨rfl, rfl⟩; rw [eb] at ex; cases ex
    · rintro ⟨rfl, rfl⟩; rw [e] at ex; cases ex
  · rw [if_neg (by rintro ⟨rfl, h2⟩; rw [e] at h2; cases h2),
      if_neg (by rintro ⟨rfl, h2⟩; rw [e] at h2; cases h2)]
    rcases h with h | h
    · rw [h]
    · rw [h, o2oSome_eq C e eb (fun hh => hni hh.2.symm)]
      simp only [setOne_many, o2oNone_many]

/-- The effect on one-to-one references. -/
theorem step_o2o {x r i} (ex : E x r = some (.one2one, i)) :
    (stepView E A d V it).one x r =
      if k = .one2one then
        if (V.one it.obj it.name).isSome then V.one x r
        else if x = it.obj ∧ r = it.name then some b
        else if x = b ∧ r = j then some it.obj
        else if r = it.name ∧ i = j ∧ V.one x r = some b then none
        else V.one x r
      else V.one x r := by
  obtain ⟨hr, hni⟩ := hreg _ _ _ _ e
  by_cases hk : k = .one2one
  · subst hk
    rw [if_pos rfl]
    have ha : A it.obj it.name = none := by
      cases ha : A it.obj it.name with
      | none => rfl
      | some q => cases hA (by rw [ha]; simp)
    rw [canon_none ha] at e eb hni
    have eb : E b j = some (.one2one, it.name) := eb
    rw [stepView_ref ht hu e ha]
    simp only [View.give, View.assign]
    cases ho : V.one it.obj it.name with
    | some y => simp
    | none =>
      simp only [Option.isSome_none, Bool.false_eq_true, if_false, if_true]
      rw [o2oSome_eq C e eb (fun hh => hni hh.2.symm)]
      have h1 : ∀ x r, (V.o2oNone it.obj it.name j).one x r = V.one x r := by
        intro x r
        rw [o2oNone_one, ho]
        split
        · rename_i hh
          rcases hh with ⟨rfl, rfl⟩ | ⟨hh, -⟩
          · exact ho.symm
          · cases hh
        · rfl
      simp only [setOne_one, o2oNone_one (V.o2oNone it.obj it.name j), h1]
      by_cases q1 : x = b ∧ r = j
      · rw [if_pos q1, if_neg (by rintro ⟨-, rfl⟩; exact hni q1.2.symm), if_pos q1]
      · rw [if_neg q1, if_neg q1]
        by_cases q2 : x = it.obj ∧ r = it.name
        · rw [if_pos q2, if_pos q2]
        · rw [if_neg q2, if_neg q2]
          have : V.one b j = some x ∧ r = it.name ↔ r = it.name ∧ i = j ∧ V.one x r = some b := by
            constructor
            · rintro ⟨hv, rfl⟩
              obtain ⟨e1, e2⟩ := C.one_one b j _ x eb hv
              rw [ex] at e1; cases e1
              exact ⟨rfl, rfl, e2⟩
            · rintro ⟨rfl, rfl, hv⟩
              exact ⟨(C.one_one x _ _ b ex hv).2, rfl⟩
          simp only [q1, false_or, this]
  · rw [if_neg hk]
    rcases step_cases C hreg hA ht hu e eb with ⟨rfl, h⟩ | ⟨rfl, hn, h⟩ | ⟨rfl, hn, h⟩ | ⟨rfl, hn, h⟩
    · rw [h]
      split
      · rfl
      · rw [o2m_one, if_neg]
        rintro ⟨rfl, rfl⟩
        rw [e] at ex; cases ex
    · have eb : E b j = some (.one2many, canon A it.obj it.name) := eb
      rw [h, o2m_one, if_neg]
      rintro ⟨rfl, rfl⟩
      rw [eb] at ex; cases ex
    · rw [h, m2mAdd_one]
    · exact absurd rfl hk

end

end Cim
end Verif

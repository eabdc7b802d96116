import Verif.Cim.Refine
/-
Consistency of the view is preserved by the accessor effects (pure reasoning about views).
-/
namespace Verif
namespace Cim
open Spec

theorem setOne_one (V : View) (a r b x s) :
    (V.setOne a r b).one x s = if x = a ∧ s = r then b else V.one x s := rfl
theorem setOne_many (V : View) (a r b) : (V.setOne a r b).many = V.many := rfl
theorem setMany_many (V : View) (a r b x s) :
    (V.setMany a r b).many x s = if x = a ∧ s = r then b else V.many x s := rfl
theorem setMany_one (V : View) (a r b) : (V.setMany a r b).one = V.one := rfl

/-! ### To-one references with a collection on the other side -/

theorem o2m_one (V : View) (a r i nb x s) :
    (V.o2m a r i nb).one x s = if x = a ∧ s = r then nb else V.one x s := by
  unfold View.o2m
  cases V.one a r <;> cases nb <;> simp only [] <;>
    first
    | simp only [setOne_one, setMany_one]
    | (split <;> simp only [setOne_one, setMany_one])

theorem o2m_many {E : Ends} {V : View} (C : Consistent E V) {a r i nb}
    (e : E a r = some (.one2many, i)) (hb : ∀ b, nb = some b → E b i = some (.many2one, r)) (x s) :
    (V.o2m a r i nb).many x s =
      (if V.one a r = some x ∧ s = i then (V.many x s).filter (· ≠ a) else V.many x s) ++
      (if nb = some x ∧ s = i then [a] else []) := by
  unfold View.o2m
  have key : ∀ b, nb = some b → V.one a r ≠ some b → a ∉ V.many b i := by
    intro b h1 h2 h3
    exact h2 (C.many_one b i r a (hb b h1) h3).2
  cases hold : V.one a r with
  | none =>
    cases nb with
    | none => simp [setOne_many]
    | some b =>
      have h0 := key b rfl (by simp [hold])
      by_cases hx : x = b ∧ s = i
      · obtain ⟨rfl, rfl⟩ := hx; simp [setOne_many, setMany_many, h0]
      · have : ¬ (b = x ∧ s = i) := fun hh => hx ⟨hh.1.symm, hh.2⟩
        simp [hx, this, setOne_many, setMany_many, h0]
  | some c =>
    cases nb with
    | none =>
      simp only [setOne_many, setMany_many]
      by_cases hx : x = c ∧ s = i
      · obtain ⟨rfl, rfl⟩ := hx; simp
      · have : ¬ (c = x ∧ s = i) := fun hh => hx ⟨hh.1.symm, hh.2⟩
        simp [hx, this]
    | some b =>
      by_cases hbc : b = c
      · subst hbc
        by_cases hx : x = b ∧ s = i
        · obtain ⟨rfl, rfl⟩ := hx; simp [setOne_many, setMany_many]
        · have : ¬ (b = x ∧ s = i) := fun hh => hx ⟨hh.1.symm, hh.2⟩
          simp [hx, this, setOne_many, setMany_many]
      · have h0 := key b rfl (by simp [hold]; exact fun hh => hbc hh.symm)
        have hcb : ¬ c = b := fun hh => hbc hh.symm
        by_cases hx : x = b ∧ s = i
        · obtain ⟨rfl, rfl⟩ := hx
          simp [hbc, hcb, setOne_many, setMany_many, h0]
        · have h2 : ¬ (b = x ∧ s = i) := fun hh => hx ⟨hh.1.symm, hh.2⟩
          by_cases hy : x = c ∧ s = i
          · obtain ⟨rfl, rfl⟩ := hy; simp [hbc, hcb, setOne_many, setMany_many, h0]
          · have h3 : ¬ (c = x ∧ s = i) := fun hh => hy ⟨hh.1.symm, hh.2⟩
            simp [hx, hy, h2, h3, hbc, setOne_many, setMany_many, h0]

/-- Membership form of `o2m_many`. -/
theorem mem_o2m {E : Ends} {V : View} (C : Consistent E V) {a r i nb}
    (e : E a r = some (.one2many, i)) (hb : ∀ b, nb = some b → E b i = some (.many2one, r)) (x s y) :
    y ∈ (V.o2m a r i nb).many x s ↔
      (y ∈ V.many x s ∧ ¬ (V.one a r = some x ∧ s = i ∧ y = a)) ∨
      (nb = some x ∧ s = i ∧ y = a) := by
  rw [o2m_many C e hb, List.mem_append]
  grind

theorem o2m_consistent {E : Ends} {V : View} (C : Consistent E V) {a r i nb}
    (e : E a r = some (.one2many, i)) (hb : ∀ b, nb = some b → E b i = some (.many2one, r)) :
    Consistent E (V.o2m a r i nb) where
  one_many := by
    intro x s j y ex hx
    rw [o2m_one] at hx
    rw [mem_o2m C e hb]
    split at hx
    · rename_i hc
      obtain ⟨rfl, rfl⟩ := hc
      rw [e] at ex; cases ex
      exact ⟨hb y hx, .inr ⟨hx, rfl, rfl⟩⟩
    · rename_i hc
      obtain ⟨h1, h2⟩ := C.one_many x s j y ex hx
      refine ⟨h1, .inl ⟨h2, ?_⟩⟩
      rintro ⟨h3, rfl, rfl⟩
      have := (C.one_many _ _ _ _ e h3).1
      rw [h1] at this; cases this
      exact hc ⟨rfl, rfl⟩
  many_one := by
    intro y j s x ey hx
    rw [mem_o2m C e hb] at hx
    rw [o2m_one]
    rcases hx with ⟨h1, h2⟩ | ⟨h1, rfl, rfl⟩
    · obtain ⟨h3, h4⟩ := C.many_one y j s x ey h1
      refine ⟨h3, ?_⟩
      split
      · rename_i hc
        obtain ⟨rfl, rfl⟩ := hc
        rw [e] at h3; cases h3
        exact absurd ⟨h4, rfl, rfl⟩ h2
      · exact h4
    · have := hb y h1
      rw [ey] at this; cases this
      exact ⟨e, by simp [h1]⟩
  one_one := by
    intro x s j y ex hx
    rw [o2m_one, if_neg (by rintro ⟨rfl, rfl⟩; rw [e] at ex; cases ex)] at hx
    obtain ⟨h1, h2⟩ := C.one_one x s j y ex hx
    refine ⟨h1, ?_⟩
    rw [o2m_one, if_neg (by rintro ⟨rfl, rfl⟩; rw [e] at h1; cases h1)]
    exact h2
  many_many := by
    have key : ∀ x s j y, E x s = some (.many2many, j) →
        (y ∈ (V.o2m a r i nb).many x s ↔ y ∈ V.many x s) := by
      intro x s j y ex
      rw [mem_o2m C e hb]
      constructor
      · rintro (⟨h, -⟩ | ⟨h1, rfl, -⟩)
        · exact h
        · have := hb x h1; rw [ex] at this; cases this
      · intro h
        refine .inl ⟨h, ?_⟩
        rintro ⟨h1, rfl, -⟩
        have := (C.one_many _ _ _ _ e h1).1
        rw [ex] at this; cases this
    intro x s j y ex hy
    rw [key x s j y ex] at hy
    obtain ⟨h1, h2⟩ := C.many_many x s j y ex hy
    exact ⟨h1, (key y j s x h1).2 h2⟩
  nodup := by
    intro x s j ex
    rw [o2m_many C e hb]
    have hn := C.nodup x s j ex
    split
    · rename_i h1
      split
      · rw [List.nodup_append]
        refine ⟨hn.filter _, by simp, ?_⟩
        intro y hy z hz
        simp at hz hy
        rw [hz]; exact hy.2
      · simpa [List.Nodup] using hn.filter _
    · rename_i h1
      split
      · rename_i h2
        rw [List.nodup_append]
        refine ⟨hn, by simp, ?_⟩
        rintro y hy z hz rfl
        simp at hz
        subst hz
        obtain ⟨h3, rfl⟩ := h2
        exact h1 ⟨(C.many_one x s r y (hb x h3) hy).2, rfl⟩
      · simpa using hn

/-! ### One-to-one -/

theorem o2oNone_many (V : View) (a r i) : (V.o2oNone a r i).many = V.many := by
  unfold View.o2oNone; cases V.one a r <;> rfl

theorem o2oNone_one (V : View) (a r i x s) :
    (V.o2oNone a r i).one x s =
      if (x = a ∧ s = r) ∨ (V.one a r = some x ∧ s = i) then none else V.one x s := by
  unfold View.o2oNone
  cases h : V.one a r with
  | none => simp [setOne_one]
  | some b =>
    simp only [setOne_one]
    by_cases h1 : x = a ∧ s = r
    · simp [h1]
    · by_cases h2 : x = b ∧ s = i
      · obtain ⟨rfl, rfl⟩ := h2; simp
      · have : ¬ (b = x ∧ s = i) := fun hh => h2 ⟨hh.1.symm, hh.2⟩
        simp [h1, h2, this]

/-- Unlinking both ends of a one-to-one association. -/
theorem o2oNone_consistent {E : Ends} {V : View} (C : Consistent E V) {a r i}
    (e : E a r = some (.one2one, i)) : Consistent E (V.o2oNone a r i) where
  one_many := by
    intro x s j y ex hx
    rw [o2oNone_many]
    rw [o2oNone_one] at hx
    split at hx
    · cases hx
    · exact C.one_many x s j y ex hx
  many_one := by
    intro y j s x ey hx
    rw [o2oNone_many] at hx
    obtain ⟨h1, h2⟩ := C.many_one y j s x ey hx
    refine ⟨h1, ?_⟩
    rw [o2oNone_one, if_neg]
    · exact h2
    · rintro (⟨rfl, rfl⟩ | ⟨h3, rfl⟩)
      · rw [e] at h1; cases h1
      · have := (C.one_one _ _ _ _ e h3).1; rw [h1] at this; cases this
  one_one := by
    intro x s j y ex hx
    rw [o2oNone_one] at hx
    split at hx
    · cases hx
    · rename_i hc
      obtain ⟨h1, h2⟩ := C.one_one x s j y ex hx
      refine ⟨h1, ?_⟩
      rw [o2oNone_one, if_neg]
      · exact h2
      · rintro (⟨rfl, rfl⟩ | ⟨h3, rfl⟩)
        · rw [e] at h1; cases h1
          exact hc (.inr ⟨h2, rfl⟩)
        · obtain ⟨h4, h5⟩ := C.one_one _ _ _ _ e h3
          rw [h4] at h1; cases h1
          rw [h5] at h2; cases h2
          exact hc (.inl ⟨rfl, rfl⟩)
  many_many := by
    intro x s j y ex hy
    rw [o2oNone_many] at hy ⊢
    exact C.many_many x s j y ex hy
  nodup := by
    intro x s j ex
    rw [o2oNone_many]
    exact C.nodup x s j ex

/-- Linking two free ends. -/
theorem link_consistent {E : Ends} {V : View} (C : Consistent E V) {a r i b}
    (e : E a r = some (.one2one, i)) (hb : E b i = some (.one2one, r))
    (ha : V.one a r = none) (hb0 : V.one b i = none) (hne : ¬ (a = b ∧ r = i)) :
    Consistent E ((V.setOne a r (some b)).setOne b i (some a)) where
  one_many := by
    intro x s j y ex hx
    rw [setOne_one, if_neg (by rintro ⟨rfl, rfl⟩; rw [hb] at ex; cases ex), setOne_one,
      if_neg (by rintro ⟨rfl, rfl⟩; rw [e] at ex; cases ex)] at hx
    exact C.one_many x s j y ex hx
  many_one := by
    intro y j s x ey hx
    obtain ⟨h1, h2⟩ := C.many_one y j s x ey hx
    refine ⟨h1, ?_⟩
    rw [setOne_one, if_neg (by rintro ⟨rfl, rfl⟩; rw [hb] at h1; cases h1), setOne_one,
      if_neg (by rintro ⟨rfl, rfl⟩; rw [e] at h1; cases h1)]
    exact h2
  one_one := by
    intro x s j y ex hx
    have hne' : ¬ (b = a ∧ i = r) := fun hh => hne ⟨hh.1.symm, hh.2.symm⟩
    simp only [setOne_one] at hx ⊢
    split at hx
    · rename_i hc
      obtain ⟨rfl, rfl⟩ := hc
      rw [hb] at ex; cases ex; cases hx
      refine ⟨e, ?_⟩
      rw [if_neg hne, if_pos ⟨rfl, rfl⟩]
    · rename_i hc
      split at hx
      · rename_i hc'
        obtain ⟨rfl, rfl⟩ := hc'
        rw [e] at ex; cases ex; cases hx
        exact ⟨hb, by simp⟩
      · rename_i hc'
        obtain ⟨h1, h2⟩ := C.one_one x s j y ex hx
        refine ⟨h1, ?_⟩
        rw [if_neg, if_neg]
        · exact h2
        · rintro ⟨rfl, rfl⟩; rw [ha] at h2; cases h2
        · rintro ⟨rfl, rfl⟩; rw [hb0] at h2; cases h2
  many_many := fun x s j y ex hy => C.many_many x s j y ex hy
  nodup := fun x s j ex => C.nodup x s j ex

/-- `a.r = b` is: free `a`, free `b`, link. -/
theorem o2oSome_eq {E : Ends} {V : View} (C : Consistent E V) {a r i b}
    (e : E a r = some (.one2one, i)) (hb : E b i = some (.one2one, r)) (hne : ¬ (a = b ∧ r = i)) :
    V.o2oSome a r i b =
      ((((V.o2oNone a r i).o2oNone b i r).setOne a r (some b)).setOne b i (some a)) := by
  have hne' : ¬ (b = a ∧ i = r) := fun hh => hne ⟨hh.1.symm, hh.2.symm⟩
  apply View.ext
  · funext x s
    unfold View.o2oSome
    simp only [setOne_one, o2oNone_one]
    by_cases h1 : x = b ∧ s = i
    · simp [h1]
    · simp only [if_neg h1]
      cases hA : V.one a r with
      | none =>
        by_cases h2 : x = a ∧ s = r
        · obtain ⟨rfl, rfl⟩ := h2
          have : V.one b i ≠ some x := fun hh => by
            have := (C.one_one _ _ _ _ hb hh).2; rw [hA] at this; cases this
          grind
        · grind
      | some c =>
        obtain ⟨hc1, hc2⟩ := C.one_one _ _ _ _ e hA
        simp only [setOne_one]
        by_cases h2 : x = a ∧ s = r
        · obtain ⟨rfl, rfl⟩ := h2
          by_cases hbc : b = c
          · subst hbc; grind
          · have : V.one b i ≠ some x := fun hh => by
              have := (C.one_one _ _ _ _ hb hh).2; rw [hA] at this; cases this; exact hbc rfl
            grind
        · grind
  · simp only [View.o2oSome, setOne_many, o2oNone_many]
    cases V.one a r <;> rfl

theorem o2oSome_consistent {E : Ends} {V : View} (C : Consistent E V) {a r i b}
    (e : E a r = some (.one2one, i)) (hb : E b i = some (.one2one, r)) (hne : ¬ (a = b ∧ r = i)) :
    Consistent E (V.o2oSome a r i b) := by
  rw [o2oSome_eq C e hb hne]
  refine link_consistent (o2oNone_consistent (o2oNone_consistent C e) hb) e hb ?_ ?_ hne
  · rw [o2oNone_one]
    split
    · rfl
    · rw [o2oNone_one]; simp
  · rw [o2oNone_one]; simp

/-! ### Many-to-many -/

theorem linkBack_many (V : View) (a i b x s) :
    (V.linkBack a i b).many x s =
      if x = b ∧ s = i then (if a ∈ V.many b i then V.many b i else V.many b i ++ [a])
      else V.many x s := by
  unfold View.linkBack
  by_cases h : a ∈ V.many b i
  · simp only [if_pos h]
    split
    · rename_i hc; obtain ⟨rfl, rfl⟩ := hc; rfl
    · rfl
  · simp only [if_neg h, setMany_many]

theorem linkBack_one (V : View) (a i b) : (V.linkBack a i b).one = V.one := by
  unfold View.linkBack; split <;> rfl

theorem m2mAdd_one (V : View) (a r i b) : (V.m2mAdd a r i b).one = V.one := by
  simp only [View.m2mAdd, setMany_one, linkBack_one]

theorem m2mRemove_one (V : View) (a r i b) : (V.m2mRemove a r i b).one = V.one := by
  simp only [View.m2mRemove, setMany_one]; split <;> rfl

/-- Adding a partner: one more member at the end of the collection, and of the opposite one unless it
is there. -/
theorem m2mAdd_many' (V : View) {a r i b} (hne : ¬ (a = b ∧ r = i)) (x s) :
    (V.m2mAdd a r i b).many x s =
      if x = a ∧ s = r then V.many a r ++ [b]
      else if x = b ∧ s = i then (if a ∈ V.many b i then V.many b i else V.many b i ++ [a]) else V.many x s := by
  simp only [View.m2mAdd, setMany_many, linkBack_many, if_neg hne]

/-- Adding a new partner: one more member at the end of each of the two collections. -/
theorem m2mAdd_many {E : Ends} {V : View} (C : Consistent E V) {a r i b}
    (hb : E b i = some (.many2many, r))
    (hne : ¬ (a = b ∧ r = i)) (hnew : b ∉ V.many a r) (x s) :
    (V.m2mAdd a r i b).many x s =
      if x = a ∧ s = r then V.many a r ++ [b]
      else if x = b ∧ s = i then V.many b i ++ [a] else V.many x s := by
  have hnb : a ∉ V.many b i := fun hh => hnew (C.many_many _ _ _ _ hb hh).2
  simp only [m2mAdd_many' V hne, if_neg hnb]

/-- Membership form of `m2mAdd_many'`. -/
theorem mem_m2mAdd (V : View) {a r i b} (hne : ¬ (a = b ∧ r = i)) (x s y) :
    y ∈ (V.m2mAdd a r i b).many x s ↔ y ∈ V.many x s ∨ (x = a ∧ s = r ∧ y = b) ∨ (x = b ∧ s = i ∧ y = a) := by
  rw [m2mAdd_many' V hne]
  grind

theorem m2mRemove_many {E : Ends} {V : View} (C : Consistent E V) {a r i b}
    (e : E a r = some (.many2many, i))
    (hne : ¬ (a = b ∧ r = i)) (hin : b ∈ V.many a r) (x s) :
    (V.m2mRemove a r i b).many x s =
      if x = a ∧ s = r then (V.many a r).erase b
      else if x = b ∧ s = i then (V.many b i).erase a else V.many x s := by
  have hnb : a ∈ V.many b i := (C.many_many _ _ _ _ e hin).2
  simp only [View.m2mRemove, setMany_many, if_pos hnb, if_neg hne]

theorem mem_erase_once {l : List Addr} {b y : Addr} (h : l.count b ≤ 1) : y ∈ l.erase b ↔ y ≠ b ∧ y ∈ l := by
  by_cases hy : y = b
  · subst hy
    have : (l.erase y).count y = 0 := by rw [List.count_erase_self]; omega
    simp [List.count_eq_zero.1 this]
  · rw [List.mem_erase_of_ne hy]; simp [hy]

/-- Removing a partner that is listed once at both ends. -/
theorem mem_m2mRemove {E : Ends} {V : View} (C : Consistent E V) {a r i b}
    (e : E a r = some (.many2many, i)) (hne : ¬ (a = b ∧ r = i)) (hin : b ∈ V.many a r)
    (na : (V.many a r).count b ≤ 1) (nb : (V.many b i).count a ≤ 1) (x s y) :
    y ∈ (V.m2mRemove a r i b).many x s ↔
      y ∈ V.many x s ∧ ¬ (x = a ∧ s = r ∧ y = b) ∧ ¬ (x = b ∧ s = i ∧ y = a) := by
  rw [m2mRemove_many C e hne hin]
  split
  · rename_i h; obtain ⟨rfl, rfl⟩ := h
    rw [mem_erase_once na]
    grind
  · split
    · rename_i h; obtain ⟨rfl, rfl⟩ := h
      rw [mem_erase_once nb]
      grind
    · grind

/-- Views that differ only in many-to-many collections. -/
theorem consistent_m2m {E : Ends} {V V' : View} (C : Consistent E V) (h1 : V'.one = V.one)
    (h2 : ∀ x s k j, E x s = some (k, j) → k ≠ .many2many → V'.many x s = V.many x s)
    (h3 : ∀ a r i b, E a r = some (.many2many, i) → b ∈ V'.many a r →
      E b i = some (.many2many, r) ∧ a ∈ V'.many b i) : Consistent E V' where
  one_many := by
    intro x s j y ex hx
    rw [h1] at hx
    obtain ⟨p, q⟩ := C.one_many x s j y ex hx
    exact ⟨p, by rw [h2 y j _ _ p (by simp)]; exact q⟩
  many_one := by
    intro y j s x ey hx
    rw [h2 y j _ _ ey (by simp)] at hx
    rw [h1]
    exact C.many_one y j s x ey hx
  one_one := by
    intro x s j y ex hx
    rw [h1] at hx ⊢
    exact C.one_one x s j y ex hx
  many_many := h3
  nodup := by
    intro x s j ex
    rw [h2 x s _ j ex (by decide)]; exact C.nodup x s j ex

theorem m2mAdd_consistent {E : Ends} {V : View} (C : Consistent E V) {a r i b}
    (e : E a r = some (.many2many, i)) (hb : E b i = some (.many2many, r)) (hne : ¬ (a = b ∧ r = i)) :
    Consistent E (V.m2mAdd a r i b) := by
  refine consistent_m2m C (m2mAdd_one ..) ?_ ?_
  · intro x s k j ex hk
    rw [m2mAdd_many' V hne, if_neg (by rintro ⟨rfl, rfl⟩; rw [e] at ex; cases ex; exact hk rfl),
      if_neg (by rintro ⟨rfl, rfl⟩; rw [hb] at ex; cases ex; exact hk rfl)]
  · intro x s j y ex hy
    rw [mem_m2mAdd V hne] at hy ⊢
    rcases hy with hy | ⟨rfl, rfl, rfl⟩ | ⟨rfl, rfl, rfl⟩
    · obtain ⟨p, q⟩ := C.many_many _ _ _ _ ex hy
      exact ⟨p, .inl q⟩
    · rw [e] at ex; cases ex
      exact ⟨hb, .inr (.inr ⟨rfl, rfl, rfl⟩)⟩
    · rw [hb] at ex; cases ex
      exact ⟨e, .inr (.inl ⟨rfl, rfl, rfl⟩)⟩

theorem m2mRemove_consistent {E : Ends} {V : View} (C : Consistent E V) {a r i b}
    (e : E a r = some (.many2many, i)) (hb : E b i = some (.many2many, r))
    (hne : ¬ (a = b ∧ r = i)) (hin : b ∈ V.many a r)
    (na : (V.many a r).count b ≤ 1) (nb : (V.many b i).count a ≤ 1) :
    Consistent E (V.m2mRemove a r i b) := by
  have hM := m2mRemove_many C e hne hin
  have hmem := mem_m2mRemove C e hne hin na nb
  refine consistent_m2m C (m2mRemove_one ..) ?_ ?_
  · intro x s k j ex hk
    rw [hM, if_neg (by rintro ⟨rfl, rfl⟩; rw [e] at ex; cases ex; exact hk rfl),
      if_neg (by rintro ⟨rfl, rfl⟩; rw [hb] at ex; cases ex; exact hk rfl)]
  · intro x s j y ex hy
    rw [hmem x s y] at hy
    obtain ⟨h1, h2, h3⟩ := hy
    obtain ⟨p, q⟩ := C.many_many _ _ _ _ ex h1
    refine ⟨p, (hmem y j x).2 ⟨q, ?_, ?_⟩⟩
    · rintro ⟨rfl, rfl, rfl⟩
      have : s = i := by rw [e] at p; cases p; rfl
      exact h3 ⟨rfl, this, rfl⟩
    · rintro ⟨rfl, rfl, rfl⟩
      have : s = r := by rw [hb] at p; cases p; rfl
      exact h2 ⟨rfl, this, rfl⟩

/-! ### Replacing collections -/

/-- Un-linking some members of `a.r` one after another. -/
theorem unlinkAll {E : Ends} {a r i} (e : E a r = some (.many2one, i)) :
    ∀ (L : List Addr) {V : View}, Consistent E V → (∀ b ∈ L, b ∈ V.many a r) → L.Nodup →
    let W := L.foldl (fun V b => V.o2m b i r none) V
    Consistent E W ∧
    (∀ x s, W.one x s = if s = i ∧ x ∈ L then none else V.one x s) ∧
    (∀ x s, W.many x s = if x = a ∧ s = r then (V.many a r).filter (· ∉ L) else V.many x s)
  | [], V, C, _, _ => by
    refine ⟨C, ?_, ?_⟩
    · intro x s; simp
    · intro x s
      simp only [List.foldl_nil]
      split
      · rename_i h; obtain ⟨rfl, rfl⟩ := h; exact (List.filter_eq_self.2 (by simp)).symm
      · rfl
  | b :: L, V, C, hL, hn => by
    have hb := hL b (List.mem_cons_self ..)
    obtain ⟨eb, hob⟩ := C.many_one _ _ _ _ e hb
    have C1 : Consistent E (V.o2m b i r none) := o2m_consistent C eb (by simp)
    have M1 := o2m_many C (nb := none) eb (by simp)
    simp only [hob] at M1
    have hL1 : ∀ c ∈ L, c ∈ (V.o2m b i r none).many a r := by
      intro c hc
      have hcb : c ≠ b := by rintro rfl; exact (List.nodup_cons.1 hn).1 hc
      rw [M1]
      simp [hcb, hL c (List.mem_cons_of_mem _ hc)]
    obtain ⟨C2, o2, m2⟩ := unlinkAll e L C1 hL1 (List.nodup_cons.1 hn).2
    refine ⟨C2, ?_, ?_⟩
    · intro x s
      have := o2 x s
      simp only [List.foldl_cons]
      rw [this, o2m_one]
      grind
    · intro x s
      have := m2 x s
      simp only [List.foldl_cons]
      rw [this]
      split
      · rename_i h; obtain ⟨rfl, rfl⟩ := h
        rw [M1]
        simp only [and_self, if_true, reduceCtorEq, false_and, if_false, List.append_nil,
          List.filter_filter, List.mem_cons, not_or]
        congr 1
        funext y
        simp [Bool.and_comm]
      · rename_i h
        rw [M1]
        have : ¬ (a = x ∧ s = r) := fun hh => h ⟨hh.1.symm, hh.2⟩
        simp [this]

theorem foldSetOne_one (i : Str) (a : Addr) :
    ∀ (ys : List Addr) (V : View) (x s),
    (ys.foldl (fun V c => V.setOne c i (some a)) V).one x s =
      if s = i ∧ x ∈ ys then some a else V.one x s
  | [], V, x, s => by simp
  | y :: ys, V, x, s => by
    simp only [List.foldl_cons]
    rw [foldSetOne_one i a ys, setOne_one]
    grind

theorem foldSetOne_many (i : Str) (a : Addr) :
    ∀ (ys : List Addr) (V : View),
    (ys.foldl (fun V c => V.setOne c i (some a)) V).many = V.many
  | [], V => rfl
  | y :: ys, V => by
    simp only [List.foldl_cons]
    rw [foldSetOne_many i a ys, setOne_many]

theorem m2oSet_one {E : Ends} {V : View} (C : Consistent E V) {a r i}
    (e : E a r = some (.many2one, i)) (ys x s) :
    (V.m2oSet a r i ys).one x s =
      if s = i ∧ x ∈ ys then some a else if s = i ∧ x ∈ V.many a r then none else V.one x s := by
  obtain ⟨-, o, -⟩ := unlinkAll e (V.many a r) C (fun _ h => h) (C.nodup _ _ _ e)
  simp only [View.m2oSet, setMany_one]
  rw [foldSetOne_one, o]

theorem m2oSet_many {E : Ends} {V : View} (C : Consistent E V) {a r i}
    (e : E a r = some (.many2one, i)) (ys x s) :
    (V.m2oSet a r i ys).many x s = if x = a ∧ s = r then ys else V.many x s := by
  obtain ⟨-, -, m⟩ := unlinkAll e (V.many a r) C (fun _ h => h) (C.nodup _ _ _ e)
  simp only [View.m2oSet, setMany_many]
  rw [foldSetOne_many]
  split
  · rfl
  · rename_i h
    rw [m, if_neg h]

/-- Replacing a collection keeps the graph consistent exactly when no element belongs to another
owner and the list has no duplicates. -/
theorem m2oSet_consistent_iff {E : Ends} {V : View} (C : Consistent E V) {a r i ys}
    (e : E a r = some (.many2one, i)) (hys : ∀ y ∈ ys, E y i = some (.one2many, r)) :
    Consistent E (V.m2oSet a r i ys) ↔
      ((∀ y ∈ ys, V.one y i = none ∨ V.one y i = some a) ∧ ys.Nodup) := by
  have hO := m2oSet_one C e ys
  have hM := m2oSet_many C e ys
  constructor
  · intro C'
    constructor
    · intro y hy
      cases hc : V.one y i with
      | none => exact .inl rfl
      | some c =>
        right
        by_cases hca : c = a
        · rw [hca]
        · obtain ⟨h1, h2⟩ := C.one_many _ _ _ _ (hys y hy) hc
          have h3 : y ∈ (V.m2oSet a r i ys).many c r := by rw [hM]; simp [hca, h2]
          have h4 := (C'.many_one _ _ _ _ h1 h3).2
          rw [hO] at h4
          simp [hy] at h4
          exact absurd h4.symm hca
    · have := C'.nodup _ _ _ e
      rw [hM] at this
      simpa using this
  · rintro ⟨hown, hnd⟩
    refine ⟨?_, ?_, ?_, ?_, ?_⟩
    · intro x s j y ex hx
      rw [hO] at hx
      split at hx
      · rename_i h; obtain ⟨rfl, hx'⟩ := h
        have := hys x hx'
        rw [ex] at this; cases this
        cases hx
        exact ⟨e, by rw [hM]; simpa using hx'⟩
      · split at hx
        · cases hx
        · rename_i h1 h2
          obtain ⟨p, q⟩ := C.one_many x s j y ex hx
          refine ⟨p, ?_⟩
          rw [hM, if_neg]
          · exact q
          · rintro ⟨rfl, rfl⟩
            rw [e] at p; cases p
            exact h2 ⟨rfl, q⟩
    · intro y j s x ey hx
      rw [hM] at hx
      rw [hO]
      split at hx
      · rename_i h; obtain ⟨rfl, rfl⟩ := h
        rw [e] at ey; cases ey
        exact ⟨hys x hx, by simp [hx]⟩
      · rename_i h
        obtain ⟨p, q⟩ := C.many_one y j s x ey hx
        refine ⟨p, ?_⟩
        split
        · rename_i h'; obtain ⟨rfl, hx'⟩ := h'
          have := hys x hx'
          rw [p] at this; cases this
          rcases hown x hx' with h0 | h0
          · rw [q] at h0; cases h0
          · rw [q] at h0; cases h0
            exact absurd ⟨rfl, rfl⟩ h
        · rw [if_neg]
          · exact q
          · rintro ⟨rfl, h'⟩
            obtain ⟨p', q'⟩ := C.many_one _ _ _ _ e h'
            rw [p] at p'; cases p'
            rw [q] at q'; cases q'
            exact h ⟨rfl, rfl⟩
    · intro x s j y ex hx
      have key : ∀ x s j, E x s = some (.one2one, j) →
          (V.m2oSet a r i ys).one x s = V.one x s := by
        intro x s j ex
        rw [hO, if_neg, if_neg]
        · rintro ⟨rfl, h'⟩
          have := (C.many_one _ _ _ _ e h').1
          rw [ex] at this; cases this
        · rintro ⟨rfl, h'⟩
          have := hys x h'; rw [ex] at this; cases this
      rw [key x s j ex] at hx
      obtain ⟨p, q⟩ := C.one_one x s j y ex hx
      exact ⟨p, by rw [key y j s p]; exact q⟩
    · intro x s j y ex hy
      rw [hM, if_neg (by rintro ⟨rfl, rfl⟩; rw [e] at ex; cases ex)] at hy
      obtain ⟨p, q⟩ := C.many_many x s j y ex hy
      refine ⟨p, ?_⟩
      rw [hM, if_neg (by rintro ⟨rfl, rfl⟩; rw [e] at p; cases p)]
      exact q
    · intro x s j ex
      rw [hM]
      split
      · exact hnd
      · exact C.nodup x s j ex

theorem foldLinkBack_one (i : Str) (a : Addr) :
    ∀ (ys : List Addr) (V : View), (ys.foldl (fun V c => V.linkBack a i c) V).one = V.one
  | [], V => rfl
  | y :: ys, V => by
    simp only [List.foldl_cons]
    rw [foldLinkBack_one i a ys, linkBack_one]

theorem foldLinkBack_many (i : Str) (a : Addr) :
    ∀ (ys : List Addr) (V : View) (x s),
    (ys.foldl (fun V c => V.linkBack a i c) V).many x s =
      if s = i ∧ x ∈ ys ∧ a ∉ V.many x i then V.many x i ++ [a] else V.many x s
  | [], V, x, s => by simp
  | y :: ys, V, x, s => by
    simp only [List.foldl_cons]
    rw [foldLinkBack_many i a ys]
    simp only [linkBack_many]
    grind

theorem m2mSet_many {E : Ends} {V : View} (C : Consistent E V) {a r i ys}
    (hempty : V.many a r = []) (hys : ∀ y ∈ ys, E y i = some (.many2many, r)) (x s) :
    (V.m2mSet a r i ys).many x s =
      if x = a ∧ s = r then ys else if s = i ∧ x ∈ ys then V.many x s ++ [a] else V.many x s := by
  simp only [View.m2mSet, setMany_many]
  rw [foldLinkBack_many]
  have : ∀ x ∈ ys, a ∉ V.many x i := by
    intro x hx hh
    have := (C.many_many _ _ _ _ (hys x hx) hh).2
    rw [hempty] at this
    simp at this
  grind

theorem m2mSet_consistent {E : Ends} {V : View} (C : Consistent E V) {a r i ys}
    (e : E a r = some (.many2many, i)) (hempty : V.many a r = [])
    (hys : ∀ y ∈ ys, E y i = some (.many2many, r)) (hne : ¬ (a ∈ ys ∧ r = i)) :
    Consistent E (V.m2mSet a r i ys) := by
  have hM := m2mSet_many C (a := a) hempty hys
  refine consistent_m2m C (by simp only [View.m2mSet, setMany_one, foldLinkBack_one]) ?_ ?_
  · intro x s k j ex hk
    rw [hM, if_neg (by rintro ⟨rfl, rfl⟩; rw [e] at ex; cases ex; exact hk rfl),
      if_neg (by rintro ⟨rfl, h⟩; have := hys x h; rw [ex] at this; cases this; exact hk rfl)]
  · intro x s j y ex hy
    rw [hM] at hy
    split at hy
    · rename_i h; obtain ⟨rfl, rfl⟩ := h
      rw [e] at ex; cases ex
      refine ⟨hys y hy, ?_⟩
      rw [hM]
      have : ¬ (y = x ∧ i = s) := by rintro ⟨rfl, rfl⟩; exact hne ⟨hy, rfl⟩
      simp [this, hy]
    · rename_i h
      split at hy
      · rename_i h'; obtain ⟨rfl, hx⟩ := h'
        have ex' := hys x hx
        rw [ex] at ex'; cases ex'
        rcases List.mem_append.1 hy with hy | hy
        · obtain ⟨p, q⟩ := C.many_many _ _ _ _ ex hy
          refine ⟨p, ?_⟩
          rw [hM]
          split
          · rename_i h2; obtain ⟨rfl, -⟩ := h2; exact hx
          · split
            · exact List.mem_append_left _ q
            · exact q
        · simp at hy; subst hy
          exact ⟨e, by rw [hM]; simpa using hx⟩
      · rename_i h'
        obtain ⟨p, q⟩ := C.many_many x s j y ex hy
        refine ⟨p, ?_⟩
        rw [hM]
        split
        · rename_i h2; obtain ⟨rfl, rfl⟩ := h2
          rw [hempty] at q; simp at q
        · split
          · exact List.mem_append_left _ q
          · exact q

/-! ### Collections without duplicates -/

/-- No collection has an object twice. -/
def AllNodup (V : View) : Prop := ∀ x s, (V.many x s).Nodup

theorem AllNodup.setMany {V : View} (A : AllNodup V) (a r) {ys : List Addr} (h : ys.Nodup) :
    AllNodup (V.setMany a r ys) := by
  intro x s
  rw [setMany_many]
  split
  · exact h
  · exact A x s

theorem nodup_snoc {l : List Addr} {a : Addr} (h : l.Nodup) (ha : a ∉ l) : (l ++ [a]).Nodup := by
  rw [List.nodup_append]
  refine ⟨h, by simp, ?_⟩
  rintro y hy z hz rfl
  simp at hz; subst hz; exact ha hy

theorem AllNodup.linkBack {V : View} (A : AllNodup V) (a i b) : AllNodup (V.linkBack a i b) := by
  unfold View.linkBack
  split
  · exact A
  · rename_i h; exact A.setMany _ _ (nodup_snoc (A b i) h)

theorem AllNodup.o2m {V : View} (A : AllNodup V) (a r i nb) : AllNodup (V.o2m a r i nb) := by
  have key : ∀ {V1 : View}, AllNodup V1 → AllNodup (match nb with
      | none => V1.setOne a r nb
      | some b => (V1.setOne a r nb).linkBack a i b) := by
    intro V1 h1
    have h2 : AllNodup (V1.setOne a r nb) := h1
    cases nb with
    | none => exact h2
    | some b => exact h2.linkBack a i b
  unfold View.o2m
  cases V.one a r with
  | none => exact key A
  | some b => exact key (A.setMany _ _ ((A _ _).filter _))

theorem AllNodup.o2oSome {V : View} (A : AllNodup V) (a r i b) : AllNodup (V.o2oSome a r i b) := by
  intro x s
  unfold View.o2oSome
  simp only [setOne_many, o2oNone_many]
  split
  · exact A x s
  · exact A x s

theorem AllNodup.fold {α : Type} {g : View → α → View} (hg : ∀ V x, AllNodup V → AllNodup (g V x)) :
    ∀ (xs : List α) {V : View}, AllNodup V → AllNodup (xs.foldl g V)
  | [], _, A => A
  | x :: xs, _, A => AllNodup.fold hg xs (hg _ x A)

theorem AllNodup.m2oSet {V : View} (A : AllNodup V) (a r i) {ys : List Addr} (h : ys.Nodup) :
    AllNodup (V.m2oSet a r i ys) := by
  unfold View.m2oSet
  refine AllNodup.setMany ?_ _ _ h
  intro x s
  rw [foldSetOne_many]
  exact AllNodup.fold (fun _ b A => A.o2m b i r none) _ A x s

theorem AllNodup.m2mSet {V : View} (A : AllNodup V) (a r i) {ys : List Addr} (h : ys.Nodup) :
    AllNodup (V.m2mSet a r i ys) :=
  AllNodup.setMany (AllNodup.fold (fun _ b A => A.linkBack a i b) _ A) _ _ h

theorem AllNodup.m2mAdd {V : View} (A : AllNodup V) {a r i b} (hne : ¬ (a = b ∧ r = i)) (h : b ∉ V.many a r) :
    AllNodup (V.m2mAdd a r i b) := by
  refine (A.linkBack a i b).setMany _ _ (nodup_snoc (A.linkBack a i b a r) ?_)
  rw [linkBack_many, if_neg hne]
  exact h

theorem AllNodup.m2mRemove {V : View} (A : AllNodup V) (a r i b) : AllNodup (V.m2mRemove a r i b) := by
  have h1 : AllNodup (if a ∈ V.many b i then V.setMany b i ((V.many b i).erase a) else V) := by
    split
    · exact A.setMany _ _ ((A _ _).erase _)
    · exact A
  exact h1.setMany _ _ ((h1 _ _).erase _)

/-- For object graphs whose ends agree, this is `Distinct`. -/
theorem allNodup_iff {h : Heap} (C : Consistent (ends h) (view h)) :
    AllNodup (view h) ↔ Distinct (ends h) (view h) := by
  constructor
  · intro A a r i _; exact A a r
  · intro D a r
    cases e : ends h a r with
    | none => simp [view, e]
    | some p =>
      obtain ⟨k, i⟩ := p
      cases k
      case many2one => exact C.nodup _ _ _ e
      case many2many => exact D _ _ _ e
      case plainMany => have := ends_regular e; cases this
      case absent => have := ends_regular e; cases this
      all_goals simp [view, e, Kind.isMany]

end Cim
end Verif

import Verif.LocProps

/-!
C111: when two counts, or two differences, are equal.
-/

namespace Ohcount

/-- `ohcount_loc_delta_is_equal`, src/loc.c:221-229. -/
def LocDelta.isEqual (d other : LocDelta) : Bool :=
  decide (d.language = other.language) && decide (d.codeAdded = other.codeAdded) && decide (d.codeRemoved = other.codeRemoved) &&
  decide (d.commentsAdded = other.commentsAdded) && decide (d.commentsRemoved = other.commentsRemoved) &&
  decide (d.blanksAdded = other.blanksAdded) && decide (d.blanksRemoved = other.blanksRemoved)

end Ohcount

namespace Ohcount.LocProps

theorem loc_isEqual (a b : Loc) : a.isEqual b = true ↔ a = b := by
  cases a; cases b
  simp only [Loc.isEqual, Bool.and_eq_true, decide_eq_true_eq, Loc.mk.injEq, and_assoc]

theorem delta_isEqual (a b : LocDelta) : a.isEqual b = true ↔ a = b := by
  cases a; cases b
  simp only [LocDelta.isEqual, Bool.and_eq_true, decide_eq_true_eq, LocDelta.mk.injEq, and_assoc]

/-- C111: two counts are equal exactly if it makes no difference which of them is added to a list: all later lookups and totals are
the same. -/
theorem C111_counts (a b : Loc) : a.isEqual b = true ↔ ∀ (l : LocList) (lang : String),
    (l.addLoc a).getLoc lang = (l.addLoc b).getLoc lang ∧ (l.addLoc a).code = (l.addLoc b).code ∧
    (l.addLoc a).comments = (l.addLoc b).comments ∧ (l.addLoc a).blanks = (l.addLoc b).blanks ∧
    (l.addLoc a).total = (l.addLoc b).total ∧ (l.addLoc a).filecount = (l.addLoc b).filecount := by
  rw [loc_isEqual]
  constructor
  · rintro rfl l lang
    exact ⟨rfl, rfl, rfl, rfl, rfl, rfl⟩
  · intro h
    have := (h [] a.language).1
    simp only [LocList.addLoc, LocList.getLoc, if_true] at this
    split at this
    · exact Option.some.inj this
    · cases this

/-- C111: the same for differences. -/
theorem C111_differences (a b : LocDelta) : a.isEqual b = true ↔ ∀ (l : LocDeltaList) (lang : String),
    (l.addDelta a).getDelta lang = (l.addDelta b).getDelta lang ∧ (l.addDelta a).codeAdded = (l.addDelta b).codeAdded ∧
    (l.addDelta a).codeRemoved = (l.addDelta b).codeRemoved ∧ (l.addDelta a).netTotal = (l.addDelta b).netTotal := by
  rw [delta_isEqual]
  constructor
  · rintro rfl l lang
    exact ⟨rfl, rfl, rfl, rfl⟩
  · intro h
    have := (h [] a.language).1
    simp only [LocDeltaList.addDelta, LocDeltaList.getDelta, if_true] at this
    split at this
    · exact Option.some.inj this
    · cases this

/-- C111: a difference is unchanged exactly if it is equal to the one of its language with nothing added or removed, and exactly if
adding it to an equal or any other difference leaves that one as it is. -/
theorem C111_unchanged (d : LocDelta) : (d.isChanged = false ↔ d.isEqual ⟨d.language, 0, 0, 0, 0, 0, 0⟩ = true) ∧
    (d.isChanged = false ↔ ∀ e : LocDelta, (e.addDelta d).isEqual e = true) := by
  obtain ⟨lang, a, b, c, d, e, f⟩ := d
  simp only [delta_isEqual]
  have h1 : LocDelta.isChanged ⟨lang, a, b, c, d, e, f⟩ = false ↔ a = 0 ∧ b = 0 ∧ c = 0 ∧ d = 0 ∧ e = 0 ∧ f = 0 := by
    simp [LocDelta.isChanged, and_assoc]
  rw [h1]
  refine ⟨by simp, ?_, ?_⟩
  · rintro ⟨rfl, rfl, rfl, rfl, rfl, rfl⟩ ⟨lang', a, b, c, d, e, f⟩
    unfold LocDelta.addDelta
    split <;> simp
  · intro h
    have := h ⟨lang, 0, 0, 0, 0, 0, 0⟩
    simpa [LocDelta.addDelta] using this

/-- Counts that agree in everything but the number of files are not equal. -/
example : (⟨"c", 3, 2, 1, 1⟩ : Loc).isEqual ⟨"c", 3, 2, 1, 1⟩ = true ∧ (⟨"c", 3, 2, 1, 1⟩ : Loc).isEqual ⟨"c", 3, 2, 1, 2⟩ = false ∧
    (⟨"c", 3, 2, 1, 1⟩ : Loc).isEqual ⟨"d", 3, 2, 1, 1⟩ = false := by decide +kernel

/-- One line added and one removed is a change, although the net change is 0. -/
example : (⟨"c", 1, 1, 0, 0, 0, 0⟩ : LocDelta).isChanged = true ∧ (⟨"c", 1, 1, 0, 0, 0, 0⟩ : LocDelta).netTotal = 0 ∧
    (⟨"c", 1, 1, 0, 0, 0, 0⟩ : LocDelta).isEqual ⟨"c", 0, 0, 0, 0, 0, 0⟩ = false ∧ (⟨"c", 0, 0, 0, 0, 0, 0⟩ : LocDelta).isChanged = false := by
  decide +kernel

end Ohcount.LocProps

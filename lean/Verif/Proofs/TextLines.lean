import Verif.Proofs.Sp3
import Verif.Spec.TextLines
/-!
# Streams that hold lines
-/
namespace S2E.Sp3
open S2E.Log

/-- The unread lines of a stream. -/
def Holds (s : Stream) (L : List Str) : Prop :=
  (∀ l ∈ L, '\n' ∉ l) ∧ s.fail = false ∧ ((s.eof = false ∧ s.rest = text L) ∨ (s.eof = false ∧ ∃ M l, L = M ++ [l] ∧ l ≠ [] ∧ s.rest = text M ++ l) ∨
    (s.eof = true ∧ L = [] ∧ s.rest = []))

theorem IsLines.holds {f : Str} {L : List Str} (h : IsLines f L) : Holds ⟨f, false, false⟩ L := by
  obtain ⟨h1, h2 | h2⟩ := h
  · exact ⟨h1, rfl, Or.inl ⟨rfl, h2⟩⟩
  · exact ⟨h1, rfl, Or.inr (Or.inl ⟨rfl, h2⟩)⟩

theorem takeWhile_last {l : Str} (h : '\n' ∉ l) : l.takeWhile (· ≠ '\n') = l ∧ l.dropWhile (· ≠ '\n') = [] := by
  induction l with
  | nil => simp
  | cons a l ih =>
    simp only [List.mem_cons, not_or] at h
    have ha : a ≠ '\n' := fun e => h.1 e.symm
    obtain ⟨h1, h2⟩ := ih h.2
    constructor
    · rw [List.takeWhile_cons_of_pos (by simpa using ha), h1]
    · rw [List.dropWhile_cons_of_pos (by simpa using ha), h2]

/-- Reading a last line that is not ended. -/
theorem getline_last {l x : Str} (h : '\n' ∉ l) (h0 : l ≠ []) : (⟨l, false, false⟩ : Stream).getline x = (⟨[], true, false⟩, l) := by
  obtain ⟨h1, h2⟩ := takeWhile_last h
  have hg : (⟨l, false, false⟩ : Stream).good = true := rfl
  rw [Stream.getline, if_pos hg]
  simp only [h2, h1]
  rcases l with _ | ⟨a, l⟩
  · exact absurd rfl h0
  · rfl

theorem holds_getline {s : Stream} {l : Str} {L : List Str} (h : Holds s (l :: L)) : ∃ s', (∀ x, s.getline x = (s', l)) ∧ Holds s' L := by
  obtain ⟨rest, eof, fail⟩ := s
  obtain ⟨h1, rfl, h2⟩ := h
  have hl := h1 l (by simp)
  have hL : ∀ m ∈ L, '\n' ∉ m := fun m hm => h1 m (by simp [hm])
  rcases h2 with ⟨rfl, rfl⟩ | ⟨rfl, M, m, e, hm, rfl⟩ | ⟨_, e, _⟩
  · refine ⟨⟨text L, false, false⟩, fun x => ?_, ⟨hL, rfl, Or.inl ⟨rfl, rfl⟩⟩⟩
    rw [text_cons]; exact getline_line hl
  · rcases M with _ | ⟨l', M⟩
    · obtain ⟨rfl, rfl⟩ := List.cons.inj e
      refine ⟨⟨[], true, false⟩, fun x => ?_, ⟨by simp, rfl, Or.inr (Or.inr ⟨rfl, rfl, rfl⟩)⟩⟩
      exact getline_last hl hm
    · obtain ⟨rfl, rfl⟩ := List.cons.inj e
      refine ⟨⟨text M ++ m, false, false⟩, fun x => ?_, ⟨hL, rfl, Or.inr (Or.inl ⟨rfl, M, m, rfl, hm, rfl⟩)⟩⟩
      rw [text_cons, List.append_assoc]; exact getline_line hl
  · simp at e

/-- At the end of the lines: an empty line is read, or the stream is at its end and the line is kept. -/
theorem holds_nil {s : Stream} (h : Holds s []) :
    (s = ⟨[], false, false⟩ ∧ ∀ x, s.getline x = (⟨[], true, true⟩, [])) ∨ (s = ⟨[], true, false⟩ ∧ ∀ x, s.getline x = (⟨[], true, true⟩, x)) := by
  obtain ⟨rest, eof, fail⟩ := s
  obtain ⟨_, rfl, ⟨rfl, rfl⟩ | ⟨rfl, M, m, e, _⟩ | ⟨rfl, _, rfl⟩⟩ := h
  · exact Or.inl ⟨rfl, fun x => rfl⟩
  · simp at e
  · exact Or.inr ⟨rfl, fun x => rfl⟩

theorem dead_getline (x : Str) : (⟨[], true, true⟩ : Stream).getline x = (⟨[], true, true⟩, x) := by
  unfold Stream.getline
  simp [Stream.good]

theorem text_nil_iff {L : List Str} : text L = [] ↔ L = [] := by
  constructor
  · intro h
    rcases L with _ | ⟨l, L⟩
    · rfl
    · rw [text_cons] at h; simp at h
  · rintro rfl; rfl

/-- Every text has lines. -/
theorem exists_lines (f : Str) : ∃ L, IsLines f L := by
  induction f with
  | nil => exact ⟨[], by simp, Or.inl rfl⟩
  | cons a f ih =>
    obtain ⟨L, h1, h2⟩ := ih
    by_cases ha : a = '\n'
    · subst ha
      refine ⟨[] :: L, by simpa using h1, ?_⟩
      rcases h2 with rfl | ⟨M, l, rfl, h3, rfl⟩
      · exact Or.inl (by rw [text_cons]; rfl)
      · exact Or.inr ⟨[] :: M, l, rfl, h3, by rw [text_cons]; rfl⟩
    · have ha' : '\n' ≠ a := fun e => ha e.symm
      rcases h2 with rfl | ⟨M, l, rfl, h3, rfl⟩
      · rcases L with _ | ⟨l, L⟩
        · exact ⟨[[a]], by simpa using ha', Or.inr ⟨[], [a], rfl, by simp, rfl⟩⟩
        · refine ⟨(a :: l) :: L, ?_, Or.inl (by rw [text_cons, text_cons]; rfl)⟩
          intro m hm
          rcases List.mem_cons.mp hm with rfl | hm
          · simp only [List.mem_cons, not_or]; exact ⟨ha', h1 l (by simp)⟩
          · exact h1 m (by simp [hm])
      · rcases M with _ | ⟨m, M⟩
        · refine ⟨[a :: l], ?_, Or.inr ⟨[], a :: l, rfl, by simp, rfl⟩⟩
          intro m hm
          rw [List.mem_singleton] at hm
          subst hm
          simp only [List.mem_cons, not_or]; exact ⟨ha', h1 l (by simp)⟩
        · refine ⟨(a :: m) :: (M ++ [l]), ?_, Or.inr ⟨(a :: m) :: M, l, rfl, h3, by rw [text_cons, text_cons]; rfl⟩⟩
          intro k hk
          rcases List.mem_cons.mp hk with rfl | hk
          · simp only [List.mem_cons, not_or]; exact ⟨ha', h1 m (by simp)⟩
          · exact h1 k (by simp only [List.cons_append, List.mem_cons]; exact Or.inr hk)

end S2E.Sp3

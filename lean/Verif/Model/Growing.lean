import Verif.Model.Reader
/-!
# A file that is still being written, as the stream of an `NMEAReader`

The environment, not pynmeagps code: a log file to which another program appends while an `NMEAReader`
(/repo/src/pynmeagps/nmeareader.py:54-98) reads it. At its end, `read(1)` and `readline()` return what there is, possibly
`b""`; more may come later.
-/
namespace Nmea
open Py

/-- The file from the reading position on, and what will be appended before each of the next operations of the
reader (`b""` for nothing; after the end of the list nothing is appended any more). -/
structure Growing where
  present : Bytes
  future : List Bytes

/-- What is there at the next operation. -/
def Growing.available (g : Growing) : Bytes := g.present ++ g.future.headD []

/-- All that the file contains from here on, now or later. -/
def Growing.everything (g : Growing) : Bytes := g.present ++ g.future.flatten

theorem Growing.available_flatten (g : Growing) : g.available ++ g.future.tail.flatten = g.everything := by
  cases g with
  | mk p f => cases f <;> simp [Growing.available, Growing.everything]

private def Growing.size (g : Growing) : Nat := g.everything.length + g.future.length

private theorem Growing.size_lt (g : Growing) (out rest : Bytes) (h : out ++ rest = g.available)
    (hd : out ≠ [] ∨ g.future ≠ []) : (Growing.mk rest g.future.tail).size < g.size := by
  have h1 : g.everything.length = out.length + rest.length + g.future.tail.flatten.length := by
    rw [← g.available_flatten, ← h]; simp only [List.length_append]
  simp only [Growing.size, Growing.everything, List.length_append] at h1 ⊢
  have h2 : g.future.tail.length = g.future.length - 1 := List.length_tail
  rcases hd with hd | hd
  · have := List.length_pos_iff.2 hd; omega
  · have := List.length_pos_iff.2 hd; omega

/-- `read(1)` and `readline()` of a file that grows. -/
def growingStream : StreamOps Growing where
  read1 g := (g.available.take 1, ⟨g.available.drop 1, g.future.tail⟩)
  readline g := ((fileLine g.available).1, ⟨(fileLine g.available).2, g.future.tail⟩)
  rel := measure Growing.size
  rel_trans a b c h1 h2 := Nat.lt_trans (m := b.size) h1 h2
  read1_len g := by simp; omega
  read1_dec g h := g.size_lt _ _ (List.take_append_drop 1 _) (.inl h)
  readline_dec g := by
    by_cases h : (fileLine g.available).1 = [] ∧ g.future = []
    · left
      obtain ⟨h1, h2⟩ := h
      have h3 := fileLine_append g.available
      rw [h1, List.nil_append] at h3
      cases g with
      | mk p f =>
        simp only at h2; subst h2
        show Growing.mk (fileLine (Growing.available ⟨p, []⟩)).2 [] = ⟨p, []⟩
        rw [h3]; simp [Growing.available]
    · right
      refine g.size_lt _ _ (fileLine_append _) ?_
      by_cases h1 : (fileLine g.available).1 = []
      · exact .inr fun h2 => h ⟨h1, h2⟩
      · exact .inl h1

end Nmea

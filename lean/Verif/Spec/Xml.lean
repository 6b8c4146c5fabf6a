import Verif.Py.Str
/-!
# Specification: well-formed XML (the part of it that a track file needs)
-/
namespace Spec.Xml
open Py

/-- A name: ASCII letters and colons, at least one. -/
def IsName (s : Str) : Prop := s ≠ [] ∧ ∀ c ∈ s, (97 ≤ c ∧ c ≤ 122) ∨ (65 ≤ c ∧ c ≤ 90) ∨ c = 58

/-- Characters that stand for themselves, in the text and between quotes: not `"`, `&`, `<` or `>`. -/
def IsText (s : Str) : Prop := ∀ c ∈ s, c ≠ 34 ∧ c ≠ 38 ∧ c ≠ 60 ∧ c ≠ 62

/-- Attributes, each after a space. -/
def attributes (l : List (Str × Str)) : Str := l.flatMap fun a => py!" " ++ a.1 ++ py!"=\"" ++ a.2 ++ py!"\""

/-- Attributes with distinct names and quotable values. -/
def AreAttributes (l : List (Str × Str)) : Prop := (l.map Prod.fst).Nodup ∧ ∀ a ∈ l, IsName a.1 ∧ IsText a.2

/-- The content of an element: texts and elements, each closed by the tag with the name of the tag that opened it. -/
inductive Content : Str → Prop
  | nil : Content []
  | text (s r) : IsText s → Content r → Content (s ++ r)
  | element (name attrs body r) : IsName name → AreAttributes attrs → Content body → Content r →
      Content (py!"<" ++ name ++ attributes attrs ++ py!">" ++ body ++ py!"</" ++ name ++ py!">" ++ r)

/-- A document: the declaration and one element. -/
def Document (s : Str) : Prop := ∃ name attrs body, IsName name ∧ AreAttributes attrs ∧ Content body ∧
  s = py!"<?xml version=\"1.0\" encoding=\"UTF-8\" standalone=\"yes\"?>" ++
    (py!"<" ++ name ++ attributes attrs ++ py!">" ++ body ++ py!"</" ++ name ++ py!">")

end Spec.Xml

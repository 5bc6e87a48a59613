import Verif.Model.FunctorWriter
/-!
# Specification for C34: printing and parsing

What the C++ library does with one number; the files are specified through it.
-/
set_option autoImplicit false
namespace GooFit.Spec
variable {F : Type}

/-- `x` is printed as a word, and reading that word, followed by white space or the end of the file, gives
`back` (`x` to the printed precision). -/
structure PrintsAs (fmt : F → List Char) (num : List Char → NumRead F) (x back : F) : Prop where
  word : ∀ c ∈ fmt x, isSpace c = false
  nonempty : fmt x ≠ []
  read : ∀ rest : List Char, (∀ c r, rest = c :: r → isSpace c = true) → num (fmt x ++ rest) = .ok back rest

/-- A name that survives being written between blanks. -/
def PlainName (s : String) : Prop := s.toList ≠ [] ∧ ∀ c ∈ s.toList, isSpace c = false

end GooFit.Spec

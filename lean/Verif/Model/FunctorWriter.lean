import Verif.Model.Minuit
import Mathlib.Data.List.Dedup
/-!
# Saving and restoring parameters (`src/goofit/FunctorWriter.cpp`)

Files are lists of characters.  How a number is printed (`operator<<`, six significant digits) and parsed
(`operator>>`) is a parameter of the model.
-/
set_option autoImplicit false
namespace GooFit
variable {F : Type}

/-- `isspace` in the C locale (library function). -/
def isSpace (c : Char) : Bool :=
  c == ' ' || c == '\t' || c == '\n' || c == '\r' || c == Char.ofNat 11 || c == Char.ofNat 12

/-- An `std::ifstream`: the characters left and the two state bits (opened at `src/goofit/FunctorWriter.cpp:33,69`). -/
structure In where
  rest : List Char
  eof : Bool
  fail : Bool

/-- Opening a file: one that does not exist sets the fail bit, not the eof bit (`src/goofit/FunctorWriter.cpp:33,69`). -/
def In.open : Option (List Char) → In
  | some text => ⟨text, false, false⟩
  | none => ⟨[], false, true⟩

/-- `stream.good()` (library function). -/
def In.good (s : In) : Bool := !s.eof && !s.fail

/-- `stream >> std::string`: skips white space and reads a word; nothing is stored if the stream is not good
or has only white space left (`src/goofit/FunctorWriter.cpp:39,73`). -/
def In.readWord (s : In) (buf : List Char) : In × List Char :=
  if s.good then
    match s.rest.dropWhile isSpace with
    | [] => (⟨[], true, true⟩, buf)
    | c :: r =>
      let w := (c :: r).takeWhile (fun c => !isSpace c)
      let r' := (c :: r).dropWhile (fun c => !isSpace c)
      (⟨r', r'.isEmpty, false⟩, w)
  else ({ s with fail := true }, buf)

/-- Result of parsing a number at the beginning of a text: the value and what is left, or a failure, after
possibly reaching the end (no counterpart in the code). -/
inductive NumRead (F : Type) where
  | ok (x : F) (rest : List Char)
  | bad (atEnd : Bool)

/-- `stream >> fptype`; the second component is what the variable holds afterwards, `none` if it was
uninitialised and nothing is stored.  A failed conversion stores zero (`src/goofit/FunctorWriter.cpp:50`). -/
def In.readNum (num : List Char → NumRead F) (zero : F) (s : In) (old : Option F) : In × Option F :=
  if s.good then
    match s.rest.dropWhile isSpace with
    | [] => (⟨[], true, true⟩, old)
    | c :: r =>
      match num (c :: r) with
      | .ok x r' => (⟨r', r'.isEmpty, false⟩, some x)
      | .bad atEnd => (⟨[], atEnd, true⟩, some zero)
  else ({ s with fail := true }, old)

/-- `stream.getline(discard, 1000)` (`src/goofit/FunctorWriter.cpp:60`). -/
def In.getline (s : In) : In :=
  if s.good then
    let line := s.rest.takeWhile (fun c => c != '\n')
    if line.length > 999 then ⟨s.rest.drop 999, false, true⟩
    else
      match s.rest.dropWhile (fun c => c != '\n') with
      | [] => ⟨[], true, line.isEmpty⟩
      | _ :: r => ⟨r, false, false⟩
  else { s with fail := true }

/-- One line of `writeToFile` (`src/goofit/FunctorWriter.cpp:15-18`). -/
def writeLine (fmt : F → List Char) (v : ParVar F) : List Char :=
  v.name.toList ++ ' ' :: fmt v.value ++ ' ' :: fmt v.error ++ ' ' :: fmt v.lower ++ ' ' :: fmt v.upper ++ ['\n']

/-- `writeToFile` (`src/goofit/FunctorWriter.cpp:9-21`): the contents of the file. -/
def writeToFile (fmt : F → List Char) (vs : List (ParVar F)) : List Char := vs.flatMap (writeLine fmt)

/-- What `tempMap` gives for a name (`src/goofit/FunctorWriter.cpp:26-30`): the last parameter of that
name. -/
def tempMap (h : Pars F) (params : List Nat) (nm : List Char) : Option Nat :=
  params.reverse.find? fun i => (h i).name.toList == nm

/-- How reading ends (no counterpart in the code). -/
inductive IoResult (α : Type) where
  | done (x : α)
  /-- an uninitialised variable was used -/
  | ub

/-- The loop of `readFromFile` (`src/goofit/FunctorWriter.cpp:38-62`); `none`: still running after `fuel`
rounds.  `size` is the size of `tempMap`, which grows with every unknown name looked up; `unk` are these
names. -/
def readLoop (num : List Char → NumRead F) (zero : F) (look : List Char → Option Nat) (size : Nat) :
    Nat → In → List Char → List (List Char) → Nat → Pars F → Option (IoResult (Pars F))
  | 0, _, _, _, _, _ => none
  | fuel + 1, s, buf, unk, numSet, h =>
    let (s, buf) := s.readWord buf
    if s.eof then some (.done h)
    else
      match look buf with
      | some i =>
        let (s, v) := s.readNum num zero none
        let (s, e) := s.readNum num zero none
        let (s, lo) := s.readNum num zero none
        let (s, hi) := s.readNum num zero none
        match v, e, lo, hi with
        | some v, some e, some lo, some hi =>
          let h := h.modify i fun p => { p with value := v, error := e, lower := lo, upper := hi }
          if numSet + 1 = size + unk.length then some (.done h)
          else readLoop num zero look size fuel s buf unk (numSet + 1) h
        | _, _, _, _ => some .ub
      | none =>
        readLoop num zero look size fuel s.getline buf (if buf ∈ unk then unk else buf :: unk) numSet h

/-- `readFromFile` (`src/goofit/FunctorWriter.cpp:23-65`) for a PDF with the given parameters. -/
def readFromFile (num : List Char → NumRead F) (zero : F) (fuel : Nat) (file : Option (List Char)) (params : List Nat)
    (h : Pars F) : Option (IoResult (Pars F)) :=
  readLoop num zero (tempMap h params) (params.map fun i => (h i).name.toList).dedup.length fuel (In.open file) [] [] 0 h

/-- The loop of `readListOfNumbers` (`src/goofit/FunctorWriter.cpp:72-79`). -/
def readListLoop (num : List Char → NumRead F) (zero : F) : Nat → In → F → List F → Option (List F)
  | 0, _, _, _ => none
  | fuel + 1, s, buf, out =>
    let (s, b) := s.readNum num zero (some buf)
    let buf := b.getD buf
    if s.eof then some out else readListLoop num zero fuel s buf (out ++ [buf])

/-- `readListOfNumbers` (`src/goofit/FunctorWriter.cpp:67-82`): what is appended to the vector. -/
def readListOfNumbers (num : List Char → NumRead F) (zero : F) (fuel : Nat) (file : Option (List Char)) : Option (List F) :=
  readListLoop num zero fuel (In.open file) zero []

/-- `writeListOfNumbers` (`src/goofit/FunctorWriter.cpp:84-93`). -/
def writeListOfNumbers (fmt : F → List Char) (xs : List F) : List Char := xs.flatMap fun x => fmt x ++ [' ']

end GooFit

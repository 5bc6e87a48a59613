import Mathlib.Data.Rat.Defs
import Mathlib.Algebra.Order.Ring.Unbundled.Rat

/-!
# Calls from Python

How a call written in Python reaches a C++ constructor or member function.  `python/` binds each of
them with pybind11, as a list of signatures (`py::init<types…>()` or a member pointer) with keyword
names (`"x"_a`) and default values (`"x"_a = v`).

pybind11 itself is a submodule that is absent from `/repo` (`extern/pybind11` is empty), so its
dispatcher and its casters are modelled from their documented behaviour; that behaviour is part of the
trusted base.  The signatures (`Model/PyBindings.lean`) are the code of this repository.
-/

set_option autoImplicit false

namespace GooFit.PyBind

/-- The bound classes that appear as the type of a parameter (`python/`), and `numpy.ndarray`. -/
inductive Cls where
  | amp3Body | binnedDataSet | dataSet | unbinnedDataSet | decayInfo3 | decayInfo3t | decayInfo4
  | decayInfo4t | eventNumber | gooPdf | lineshape | mixingTimeResolution | observable | params
  | pdfBase | spinFactor | variable | ndarray
  deriving DecidableEq

/-- The bound enumerations that appear as the type of a parameter:
`python/PDFs/physics/Lineshapes.cpp:17-23`, `python/PDFs/physics/SpinFactors.cpp:10-28`. -/
inductive EnumCls where
  | ff | sf
  | other   -- `DaughterPair`, `DP4Pair`: `python/PDFs/physics/DalitzPlotHelpers.cpp:13-38`
  deriving DecidableEq

/-- The C++ type of a parameter of a bound signature.  Simplification: a reference is the type itself;
`fptype` is `double`; `size_t` and `long` have 64 bits. -/
inductive CTy where
  | str | bool | int | uint | long | size | flt
  | inst (c : Cls)                       -- `T` or `T &`
  | ptr (c : Cls)                        -- `T *`
  | enum (e : EnumCls)
  | vecInst (c : Cls) | vecPtr (c : Cls) -- `std::vector<T>`, `std::vector<T *>`
  | vecFlt | vecInt
  | spline                               -- `Lineshapes::spline_t`, a tuple of two numbers and a count
  deriving DecidableEq

/-- A Python value that is not a sequence.  An instance of a bound class carries its identity, the
bound classes it is an instance of and, when its class defines `__bool__`, its truth value
(`Indexable` does: `python/goofit/Variable.cpp:23`).  Simplifications: a float is the number it
denotes (no infinities, no NaN), and an instance of a bound class is not a sequence. -/
inductive PyAtom where
  | none
  | bool (b : Bool)
  | int (n : Int)
  | float (q : Rat)
  | str (s : String)
  | obj (id : Nat) (bases : List Cls) (truth : Option Bool)
  | enumerator (e : EnumCls) (n : Int)
  deriving DecidableEq

/-- A Python value.  Simplification: no sequence of sequences (no bound parameter takes one). -/
inductive PyVal where
  | atom (a : PyAtom)
  | seq (l : List PyAtom)
  deriving DecidableEq

/-- A value a C++ parameter receives; an instance is received by its identity. -/
inductive CAtom where
  | str (s : String) | bool (b : Bool) | int (n : Int) | flt (q : Rat) | ref (id : Nat) | null
  | enum (e : EnumCls) (n : Int)
  deriving DecidableEq

/-- A value a C++ parameter receives. -/
inductive CVal where
  | atom (a : CAtom)
  | list (l : List CAtom)
  deriving DecidableEq

/-- The integer a Python integer, truth value or enumerator stands for (`nb_index`). -/
def index : PyAtom → Option Int
  | .int n => some n
  | .bool b => some (if b then 1 else 0)
  | .enumerator _ n => some n
  | _ => none

/-- The caster of the integer types: a float is refused, and so is an integer out of range. -/
def loadInt (lo hi : Int) (v : PyAtom) : Option CAtom :=
  match index v with
  | some n => if lo ≤ n ∧ n < hi then some (.int n) else none
  | none => none

/-- The truth value the caster of `bool` takes from a value other than `True` and `False` when
conversions are allowed: `None` is false, and anything with a number-like truth value is tested. -/
def truthOf : PyAtom → Option Bool
  | .none => some false
  | .bool b => some b
  | .int n => some (n ≠ 0)
  | .float q => some (q ≠ 0)
  | .obj _ _ t => t
  | _ => none

/-- The casters of the types that are not sequences; `convert` allows conversions. -/
def loadAtom (convert : Bool) : CTy → PyAtom → Option CAtom
  | .str, .str s => some (.str s)
  | .bool, .bool b => some (.bool b)
  | .bool, v => if convert then (truthOf v).map .bool else none
  | .int, v => loadInt (-2 ^ 31) (2 ^ 31) v
  | .uint, v => loadInt 0 (2 ^ 32) v
  | .long, v => loadInt (-2 ^ 63) (2 ^ 63) v
  | .size, v => loadInt 0 (2 ^ 64) v
  | .flt, .float q => some (.flt q)
  | .flt, v => if convert then (index v).map (fun n => .flt n) else none
  | .inst c, .obj id bases _ => if c ∈ bases then some (.ref id) else none
  | .ptr c, .obj id bases _ => if c ∈ bases then some (.ref id) else none
  | .ptr _, .none => if convert then some .null else none
  | .enum e, .enumerator e' n => if e = e' then some (.enum e n) else none
  | _, _ => none

/-- The element type of a vector type. -/
def elem : CTy → Option CTy
  | .vecInst c => some (.inst c)
  | .vecPtr c => some (.ptr c)
  | .vecFlt => some .flt
  | .vecInt => some .int
  | _ => none

/-- The casters, with those of the vectors (every element must load) and of `spline_t`. -/
def load (convert : Bool) : CTy → PyVal → Option CVal
  | .spline, .seq [a, b, c] =>
      match loadAtom convert .flt a, loadAtom convert .flt b, loadAtom convert .uint c with
      | some x, some y, some z => some (.list [x, y, z])
      | _, _, _ => none
  | ty, .seq l =>
      match elem ty with
      | some t => (l.mapM (loadAtom convert t)).map .list
      | none => none
  | ty, .atom a => (loadAtom convert ty a).map .atom

/-- A parameter of a bound signature: its keyword (`"x"_a`), if it has one, its C++ type, and the
default value given in Python (`"x"_a = v`). -/
structure Param where
  kw : Option String
  ty : CTy
  dflt : Option PyVal

/-- A bound signature; the object a member function is called on is left out. -/
abbrev Sig := List Param

/-- A call: the values given by position and those given by keyword. -/
structure PyCall where
  positional : List PyVal
  keyword : List (String × PyVal)

/-- The dispatcher's filling of the parameters of one signature: positional values first (refused when
a keyword names the same parameter), then for each further parameter the keyword of its name, or its
default, or failure; a value that is left over is a failure. -/
def fill : List Param → List PyVal → List (String × PyVal) → Option (List PyVal)
  | [], [], [] => some []
  | [], _, _ => none
  | p :: ps, a :: as, kw =>
      match p.kw.bind (fun n => kw.lookup n) with
      | some _ => none
      | none => (fill ps as kw).map (a :: ·)
  | p :: ps, [], kw =>
      match p.kw with
      | none => none
      | some n =>
          match kw.lookup n with
          | some v => (fill ps [] (kw.eraseP (fun e => e.1 == n))).map (v :: ·)
          | none =>
              match p.dflt with
              | some d => (fill ps [] kw).map (d :: ·)
              | none => none

/-- All values through their casters. -/
def loadAll (convert : Bool) : List Param → List PyVal → Option (List CVal)
  | [], [] => some []
  | p :: ps, v :: vs =>
      match load convert p.ty v, loadAll convert ps vs with
      | some x, some xs => some (x :: xs)
      | _, _ => none
  | _, _ => none

/-- One signature tried on a call: the values its C++ function is called with. -/
def tryCall (convert : Bool) (s : Sig) (c : PyCall) : Option (List CVal) :=
  match fill s c.positional c.keyword with
  | some vs => loadAll convert s vs
  | none => none

/-- The signatures tried in the order they were bound, the first of which is number `k`. -/
def firstMatch (convert : Bool) (c : PyCall) : Nat → List Sig → Option (Nat × List CVal)
  | _, [] => none
  | k, s :: ss =>
      match tryCall convert s c with
      | some cs => some (k, cs)
      | none => firstMatch convert c (k + 1) ss

/-- The dispatcher: with several signatures they are all tried without conversions first; then with.
`none` is a `TypeError`. -/
def dispatch (ss : List Sig) (c : PyCall) : Option (Nat × List CVal) :=
  match ss with
  | [s] => firstMatch true c 0 [s]
  | ss =>
      match firstMatch false c 0 ss with
      | some r => some r
      | none => firstMatch true c 0 ss

end GooFit.PyBind

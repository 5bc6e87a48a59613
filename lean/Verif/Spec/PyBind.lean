import Verif.Model.PyBind

/-!
# What a call from Python should do

A call gives each parameter the value in its position, or the value of the keyword with its name, or
the default; the C++ function receives what those values stand for.  Only the data types of the model
are used here, none of its functions.
-/

set_option autoImplicit false

namespace GooFit.Spec

open PyBind

/-- A parameter as a C++ header declares it. -/
structure Declared where
  name : String
  ty : CTy
  dflt : Option PyVal

/-- A Python value that counts as an integer: an integer, a truth value (Python's `True` is 1), or an
enumerator. -/
inductive Counts : PyAtom → Int → Prop where
  | int (n : Int) : Counts (.int n) n
  | yes : Counts (.bool true) 1
  | no : Counts (.bool false) 0
  | enumerator (e : EnumCls) (n : Int) : Counts (.enumerator e n) n

/-- `StandsFor t a x`: the Python value `a` is a proper value for a parameter of type `t`, and stands
for the C++ value `x`. -/
inductive StandsFor : CTy → PyAtom → CAtom → Prop where
  | str (s : String) : StandsFor .str (.str s) (.str s)
  | bool (b : Bool) : StandsFor .bool (.bool b) (.bool b)
  | int {a : PyAtom} {n : Int} : Counts a n → -2147483648 ≤ n → n ≤ 2147483647 →
      StandsFor .int a (.int n)
  | uint {a : PyAtom} {n : Int} : Counts a n → 0 ≤ n → n ≤ 4294967295 → StandsFor .uint a (.int n)
  | long {a : PyAtom} {n : Int} : Counts a n → -9223372036854775808 ≤ n → n ≤ 9223372036854775807 →
      StandsFor .long a (.int n)
  | size {a : PyAtom} {n : Int} : Counts a n → 0 ≤ n → n ≤ 18446744073709551615 →
      StandsFor .size a (.int n)
  | float (q : Rat) : StandsFor .flt (.float q) (.flt q)
  | whole {a : PyAtom} {n : Int} : Counts a n → StandsFor .flt a (.flt n)
  | inst {c : Cls} {bases : List Cls} (id : Nat) (truth : Option Bool) : c ∈ bases →
      StandsFor (.inst c) (.obj id bases truth) (.ref id)
  | ptr {c : Cls} {bases : List Cls} (id : Nat) (truth : Option Bool) : c ∈ bases →
      StandsFor (.ptr c) (.obj id bases truth) (.ref id)
  | null (c : Cls) : StandsFor (.ptr c) .none .null
  | enum (e : EnumCls) (n : Int) : StandsFor (.enum e) (.enumerator e n) (.enum e n)

/-- The same for all values: a vector takes a sequence whose elements are proper values for its
elements, `spline_t` two numbers and a count. -/
inductive Means : CTy → PyVal → CVal → Prop where
  | one {t : CTy} {a : PyAtom} {x : CAtom} : StandsFor t a x → Means t (.atom a) (.atom x)
  | insts {c : Cls} {l : List PyAtom} {xs : List CAtom} :
      List.Forall₂ (StandsFor (.inst c)) l xs → Means (.vecInst c) (.seq l) (.list xs)
  | ptrs {c : Cls} {l : List PyAtom} {xs : List CAtom} :
      List.Forall₂ (StandsFor (.ptr c)) l xs → Means (.vecPtr c) (.seq l) (.list xs)
  | floats {l : List PyAtom} {xs : List CAtom} :
      List.Forall₂ (StandsFor .flt) l xs → Means .vecFlt (.seq l) (.list xs)
  | ints {l : List PyAtom} {xs : List CAtom} :
      List.Forall₂ (StandsFor .int) l xs → Means .vecInt (.seq l) (.list xs)
  | spline {a b c : PyAtom} {x y z : CAtom} :
      StandsFor .flt a x → StandsFor .flt b y → StandsFor .uint c z →
      Means .spline (.seq [a, b, c]) (.list [x, y, z])

/-- The value `v` is what the call gives parameter number `j`, which is `p`. -/
inductive Given (c : PyCall) (j : Nat) (p : Param) : PyVal → Prop where
  | position {v : PyVal} : c.positional[j]? = some v → Given c j p v
  | keyword {v : PyVal} (n : String) : c.positional.length ≤ j → p.kw = some n →
      (n, v) ∈ c.keyword → Given c j p v
  | default {v : PyVal} : c.positional.length ≤ j → (∀ n w, p.kw = some n → (n, w) ∉ c.keyword) →
      p.kw ≠ none → p.dflt = some v → Given c j p v

/-- The call gives the parameters `ps` the values `vs` and nothing else: not too many values by
position, each keyword the name of a parameter not given by position, and a value for each parameter. -/
structure Fills (ps : List Param) (c : PyCall) (vs : List PyVal) : Prop where
  few : c.positional.length ≤ ps.length
  known : ∀ n v, (n, v) ∈ c.keyword →
    ∃ (j : Nat) (p : Param), c.positional.length ≤ j ∧ ps[j]? = some p ∧ p.kw = some n
  size : vs.length = ps.length
  each : ∀ (j : Nat) (p : Param) (v : PyVal), ps[j]? = some p → vs[j]? = some v → Given c j p v

/-- A call that fits a signature: Python never gives a keyword twice, the call fills the parameters,
and each parameter is filled with a proper value, standing for the C++ value at its place in `xs`. -/
structure Fits (ps : List Param) (c : PyCall) (vs : List PyVal) (xs : List CVal) : Prop where
  once : (c.keyword.map Prod.fst).Nodup
  fills : Fills ps c vs
  size : xs.length = ps.length
  proper : ∀ (j : Nat) (p : Param) (v : PyVal) (x : CVal),
    ps[j]? = some p → vs[j]? = some v → xs[j]? = some x → Means p.ty v x

end GooFit.Spec

import Verif.Base.Dbl
import Verif.Base.Res

set_option autoImplicit false

/-!
# `Source/Tools/Numerics.cpp`

A C array with its length (`double* p, unsigned int sampleSize`) is modelled as
a list whose length is `sampleSize`; every caller passes the length it
allocated. Lengths are assumed to fit in 31 bits. Unsigned subtraction wraps
(`usub`).
-/

namespace QED
namespace Numerics

open Dbl

variable {D : Type} [Dbl D]

/-- Subtraction of `unsigned int` values: wraps modulo `2^32`. -/
def usub (a b : Nat) : Nat := (a + 2 ^ 32 - b) % 2 ^ 32

/-- Subtraction of `size_t` values: wraps modulo `2^64`. -/
def usub64 (a b : Nat) : Nat := (a + 2 ^ 64 - b) % 2 ^ 64

/-- The loops `for (i = i0; i < bound; i += 2) integral += c * integrand[i]`
(`Numerics.cpp:12-19`). A read past the end is undefined behaviour. -/
def sumStep2 (c : D) (f : List D) (bound i : Nat) (integral : D) : Res D :=
  if i < bound then
    if h : i < f.length then
      sumStep2 c f bound (i + 2) (integral +. c *. f[i])
    else .ub "SimpsonsRule: read past the end of the integrand"
  else .ok integral
termination_by f.length - i

/-- `SimpsonsRule` (`Numerics.cpp:6-23`). -/
def simpsonsRule (axis integrand : List D) : Res D := do
  let back ← (match axis.getLast? with
    | some a => .ok a
    | none => .ub "SimpsonsRule: back() of an empty vector" : Res D)
  let front ← rd axis 0
  let deltaX := (back -. front) /. (lit axis.length -. lit 1)
  let f0 ← rd integrand 0
  let s1 ← sumStep2 (lit 4) integrand (usub64 integrand.length 1) 1 f0
  let s2 ← sumStep2 (lit 2) integrand (usub64 integrand.length 2) 2 s1
  let fLast ← (match integrand.getLast? with
    | some a => .ok a
    | none => .ub "SimpsonsRule: back() of an empty vector" : Res D)
  .ok ((s2 +. fLast) *. deltaX /. lit 3)

/-- The scan at `Numerics.cpp:44-53`: the first `i` (counting from `i`) with
`q < s[i]`; `none` if the loop ends without `break`. -/
def firstAbove (q : D) : List D → Nat → Option Nat
  | [], _ => none
  | s :: ss, i => if q <. s then some i else firstAbove q ss (i + 1)

/-- `Interpolate1D` (`Numerics.cpp:26-59`). -/
def interpolate1D (s d : List D) (q : D) : Res D := do
  let n := s.length
  let s0 ← rd s 0
  if q <. s0 then
    let d0 ← rd d 0
    let d1 ← rd d 1
    let s1 ← rd s 1
    .ok (d0 +. (d1 -. d0) *. ((q -. s0) /. (s1 -. s0)))
  else
    let sEnd ← rd s (usub n 1)
    if sEnd <. q then
      -- `end - 1` is -1 for a table of one point
      if n < 2 then .ub "Interpolate1D: index -1" else
      let dE ← rd d (n - 1)
      let dP ← rd d (n - 2)
      let sP ← rd s (n - 2)
      .ok (dE +. (dE -. dP) *. ((q -. sP) /. (sEnd -. sP)))
    else
      match firstAbove q s 0 with
      | some 0 => .ub "Interpolate1D: index -1"
      | some (l + 1) =>
        let dl ← rd d l
        let sl ← rd s l
        let dh ← rd d (l + 1)
        let sh ← rd s (l + 1)
        .ok (dl +. (q -. sl) *. (dh -. dl) /. (sh -. sl))
      | none =>
        -- no sample above the query: `lIndex`, `hIndex` keep their initial 0, 1
        let dl ← rd d 0
        let sl ← rd s 0
        let dh ← rd d 1
        let sh ← rd s 1
        .ok (dl +. (q -. sl) *. (dh -. dl) /. (sh -. sl))

/-- The scan shared by `ArrayIndex` (`Numerics.cpp:63-73`) and `ClosestPoints`
(`Numerics.cpp:92-102`): `low` is the last index of the leading run of samples
below the query. -/
def scanLow (q : D) : List D → Nat → Nat → Nat
  | [], _, low => low
  | s :: ss, i, low => if s <. q then scanLow q ss (i + 1) i else low

/-- `ArrayIndex` (`Numerics.cpp:61-87`). -/
def arrayIndex (s : List D) (q : D) : Res Nat := do
  let n := s.length
  let low := scanLow q s 0 0
  if low < usub n 1 then
    let sl ← rd s low
    let sh ← rd s (low + 1)
    if (q -. sl) <. (sh -. q) then .ok low else .ok (low + 1)
  else
    -- `return sampleSize - 1`; -1 as an `int` when `sampleSize` is 0, which the
    -- branch condition excludes
    .ok (usub n 1)

/-- `ClosestPoints` (`Numerics.cpp:89-113`): the pair `(lowIndex, frac)`. The
comparison at line 103 is unsigned. -/
def closestPoints (s : List D) (q : D) : Res (Nat × D) := do
  let n := s.length
  let low := scanLow q s 0 0
  if low < usub n 2 then
    let sl ← rd s low
    let sh ← rd s (low + 1)
    .ok (low, (q -. sl) /. (sh -. sl))
  else .exit (-1)

end Numerics
end QED

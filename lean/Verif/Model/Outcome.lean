import Verif.Model.Bytes
/-!
# Outcomes

Undefined behaviour is a value of its own, never a default result.
-/
namespace Verif

/-- The kinds of undefined behaviour the modelled code can run into. -/
inductive UB where
  /-- `isspace` called with a value that is neither an `unsigned char` nor `EOF` (stringutils.cpp:12, 21). -/
  | isspaceDomain
  /-- A null pointer is read as a C string or dereferenced. -/
  | nullDeref
  /-- A write outside an array or heap block. -/
  | outOfBounds
  /-- `FD_SET` with a descriptor of `FD_SETSIZE` or more (smtpclientbase.cpp:533). -/
  | fdSetRange
  /-- `delete` of a block that is not allocated any more. -/
  | doubleFree
  /-- Access to a block that is not allocated any more. -/
  | useAfterFree
  deriving DecidableEq, Repr

/-- How a constructor or setter can fail to return. -/
inductive Fail where
  /-- `throw std::invalid_argument`. -/
  | invalidArgument
  | ub (u : UB)
  deriving DecidableEq, Repr


end Verif

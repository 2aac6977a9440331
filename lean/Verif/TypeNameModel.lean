/-!
# Model of the compile-time parsing of type names

detail/demangle.hpp:53-198. Strings are lists of characters, without the terminating zero: `char const (&)[S]` with `S` = length + 1.
-/

namespace Leaf

/-- `cpp11_prefix<S1, S2, I, true>::check`, demangle.hpp:61-76: compares the characters `I`, `I - 1`, ..., 0. -/
def prefixFrom (str pre : List Char) : Nat → Bool
  | 0 => str[0]? == pre[0]?
  | i + 1 => str[i + 1]? == pre[i + 1]? && prefixFrom str pre i

/-- `check_prefix`, demangle.hpp:77-81 (with `cpp11_prefix<..., false>`, 53-60): the length of the prefix, or 0. -/
def checkPrefix (str pre : List Char) : Nat :=
  if str.length + 1 ≥ pre.length + 1 && prefixFrom str pre (pre.length + 1 - 2) then pre.length + 1 - 1 else 0

/-- `cpp11_suffix<S1, S2, I1, I2, true>::check`, demangle.hpp:93-108. -/
def suffixFrom (str suf : List Char) : Nat → Nat → Bool
  | i, 0 => str[i]? == suf[0]?
  | i, j + 1 => str[i]? == suf[j + 1]? && suffixFrom str suf (i - 1) j

/-- `check_suffix`, demangle.hpp:109-113: the position of the suffix, or 0. -/
def checkSuffix (str suf : List Char) : Nat :=
  if str.length + 1 ≥ suf.length + 1 && suffixFrom str suf (str.length + 1 - 2) (suf.length + 1 - 2) then (str.length + 1) - (suf.length + 1) else 0

/-- The prefixes `p01` ... `p15`, demangle.hpp:150-171, in three groups: clang and gcc; msvc with `struct`, `class`, `enum`; msvc, other types. -/
def prefixes1 : List (List Char) :=
  ["r boost::leaf::n::p() [T = ".toList,
   "boost::leaf::n::r boost::leaf::n::p() [T = ".toList,
   "boost::leaf::n::r boost::leaf::n::p() [with T = ".toList]
def prefixes2 : List (List Char) :=
  ["struct boost::leaf::n::r __cdecl boost::leaf::n::p<struct ".toList,
   "struct boost::leaf::n::r __stdcall boost::leaf::n::p<struct ".toList,
   "struct boost::leaf::n::r __fastcall boost::leaf::n::p<struct ".toList,
   "struct boost::leaf::n::r __cdecl boost::leaf::n::p<class ".toList,
   "struct boost::leaf::n::r __stdcall boost::leaf::n::p<class ".toList,
   "struct boost::leaf::n::r __fastcall boost::leaf::n::p<class ".toList,
   "struct boost::leaf::n::r __cdecl boost::leaf::n::p<enum ".toList,
   "struct boost::leaf::n::r __stdcall boost::leaf::n::p<enum ".toList,
   "struct boost::leaf::n::r __fastcall boost::leaf::n::p<enum ".toList]
def prefixes3 : List (List Char) :=
  ["struct boost::leaf::n::r __cdecl boost::leaf::n::p<".toList,
   "struct boost::leaf::n::r __stdcall boost::leaf::n::p<".toList,
   "struct boost::leaf::n::r __fastcall boost::leaf::n::p<".toList]

/-- The suffixes `s01`, `s02`, demangle.hpp:175-178. -/
def suffix1 : List Char := "]".toList
def suffix2 : List Char := ">(void)".toList

/-- `!!p + !!q + ...` -/
def countTrue (ps : List Nat) : Nat := (ps.map fun p => if p ≠ 0 then 1 else 0).sum

/-- `n::p<T>()`, demangle.hpp:131-198, where `str` is `BOOST_LEAF_PRETTY_FUNCTION`: the characters written by `n::r::operator<<`
(`os.write(name, len)`, 118-130); `none`: the static assertion fails. -/
def parseName (str : List Char) : Option (List Char) :=
  let p1 := prefixes1.map (checkPrefix str)
  let p2 := prefixes2.map (checkPrefix str)
  let p3 := prefixes3.map (checkPrefix str)
  let s1 := checkSuffix str suffix1
  let s2 := checkSuffix str suffix2
  if (s1 ≠ 0 ∧ 1 = countTrue p1) ∨ (s2 ≠ 0 ∧ 1 = countTrue p2) ∨ (s2 ≠ 0 ∧ 1 = countTrue p3) then
    let q1 := (if s1 ≠ 0 then 1 else 0) * p1.sum
    let q2 := (if s2 ≠ 0 then 1 else 0) * p2.sum
    let q3 := (if s2 ≠ 0 then 1 else 0) * p3.sum
    if q1 ≠ 0 then some ((str.drop q1).take (s1 - q1))
    else if q2 ≠ 0 then some ((str.drop q2).take (s2 - q2))
    else some ((str.drop q3).take (s2 - q3))
  else none

end Leaf

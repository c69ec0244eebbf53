/-!
# Model of `src/util/Hash.h`

`uint64_t` is `BitVec 64`.  `char` is a byte `BitVec 8`; the integral promotion in `hash ^ c`
converts a (signed, as on x86-64) `char` by sign extension.
-/
namespace Tandem.Hash

/-- `fnv1a0`, src/util/Hash.h line 9. -/
def fnv1a0 : BitVec 64 := 0xcbf29ce484222325#64

/-- `fnv1a_step`, src/util/Hash.h line 10. -/
def fnv1aStep (hash : BitVec 64) (c : BitVec 8) : BitVec 64 :=
  (hash ^^^ c.signExtend 64) * 0x00000100000001b3#64

/-- `fnv1a(char const* s, std::size_t len)`, src/util/Hash.h lines 11-13: recursion on the length,
reading `s[len-1]`.  `none` is a read behind the end of the array. -/
def fnv1aLen (s : List (BitVec 8)) : Nat → Option (BitVec 64)
  | 0 => some fnv1a0
  | n + 1 => do
    let h ← fnv1aLen s n
    let c ← s[n]?
    return fnv1aStep h c

/-- `fnv1a(std::string const&)` and the literal operator, src/util/Hash.h lines 14-15. -/
def fnv1a (s : List (BitVec 8)) : Option (BitVec 64) := fnv1aLen s s.length

/-- The running hash of the lexer: `hash = fnv1a0()` and one `fnv1a_step` per character,
src/io/GMSHLexer.cpp lines 37-41. -/
def running (s : List (BitVec 8)) : BitVec 64 := s.foldl fnv1aStep fnv1a0

/-- An ASCII character as a byte.
The argument of `fnv1a_step`, src/util/Hash.h line 10. -/
def byte (c : Char) : BitVec 8 := BitVec.ofNat 8 c.toNat

/-- Bytes of an ASCII string.
The argument of `fnv1a`, src/util/Hash.h lines 11-15. -/
def bytes (s : String) : List (BitVec 8) := s.toList.map byte

end Tandem.Hash

/-!
# Specification: the key stream of Sony metadata

Nothing here refers to the model. All words are 32-bit numbers.
-/

namespace Spec

/-- The linear congruential generator that expands the key. -/
def sonyLcg (k : Nat) : Nat := (k * 48828125 + 1) % 2 ^ 32

/-- The words of the seed: three outputs of the generator, the fourth mixed, then a recurrence. -/
def sonySeed (key : Nat) : Nat → Nat
  | 0 => sonyLcg key
  | 1 => sonyLcg (sonyLcg key)
  | 2 => sonyLcg (sonyLcg (sonyLcg key))
  | 3 => (sonyLcg (sonyLcg (sonyLcg (sonyLcg key))) * 2 % 2 ^ 32) |||
      ((sonyLcg key ^^^ sonyLcg (sonyLcg (sonyLcg key))) / 2 ^ 31)
  | n + 4 => ((sonySeed key n ^^^ sonySeed key (n + 2)) * 2 % 2 ^ 32) ||| ((sonySeed key (n + 1) ^^^ sonySeed key (n + 3)) / 2 ^ 31)

/-- The four bytes of a word in the opposite order. -/
def reverseWord (x : Nat) : Nat :=
  (x % 256) * 16777216 + (x / 256 % 256) * 65536 + (x / 65536 % 256) * 256 + x / 16777216 % 256

/-- The words: 127 words of seed with their bytes reversed, then each word is the sum (exclusive or) of those 127 and 63 places before. -/
def sonyWord (key n : Nat) : Nat :=
  if n < 127 then reverseWord (sonySeed key n) else sonyWord key (n - 127) ^^^ sonyWord key (n - 63)
termination_by n

/-- The key stream: the bytes of the words after the seed, low byte first. -/
def sonyByte (key i : Nat) : UInt8 := UInt8.ofNat (sonyWord key (127 + i / 4) / 256 ^ (i % 4))

end Spec

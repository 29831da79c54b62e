import Verif.Model.Matrix
/-!
# `f32` arithmetic that the kernel computes fast

A finite `f32` is a multiple of `2^-149`. `Fx` keeps the sign and the factor, and `bad` for all else. The matrix code of `Model.Matrix` is
written out for it with every intermediate value computed before it is used. `Lemmas.FxMatrix` proves that the results are those of the model;
nothing here is part of the model. Recursors and functions on `Nat` literals are used because the kernel is fast on them.
-/

namespace Fast
open Rust Model

/-- `neg`: the sign bit; `k`: the multiple of `2^-149`. -/
inductive Fx where
  | bad
  | val (neg : Bool) (k : Nat)
  deriving DecidableEq

noncomputable section

/-- `k n` with `n` computed first. -/
def fo {β : Type} (n : Nat) (k : Nat → β) : β := Nat.rec (k (nat_lit 0)) (fun m _ => k (Nat.succ m)) n

/-- `if b then x else y` -/
def bo {β : Type} (b : Bool) (x y : β) : β := Bool.rec y x b

def step {β : Type} (q p w u s : Nat) (k : Nat → Nat → β) : β := bo (Nat.ble q u) (fo (Nat.div u p) fun u => k u (Nat.add s w)) (k u s)

/-- The number of binary places of `u` beyond 24. -/
def places {β : Type} (u : Nat) (k : Nat → β) : β :=
  step (nat_lit 971334446112864535459730953411759453321203419526069760625906204869452142602604249088) (nat_lit 115792089237316195423570985008687907853269984665640564039457584007913129639936) (nat_lit 256) u (nat_lit 0) fun u s =>
  step (nat_lit 2854495385411919762116571938898990272765493248) (nat_lit 340282366920938463463374607431768211456) (nat_lit 128) u s fun u s =>
  step (nat_lit 154742504910672534362390528) (nat_lit 18446744073709551616) (nat_lit 64) u s fun u s =>
  step (nat_lit 36028797018963968) (nat_lit 4294967296) (nat_lit 32) u s fun u s =>
  step (nat_lit 549755813888) (nat_lit 65536) (nat_lit 16) u s fun u s =>
  step (nat_lit 2147483648) (nat_lit 256) (nat_lit 8) u s fun u s =>
  step (nat_lit 134217728) (nat_lit 16) (nat_lit 4) u s fun u s =>
  step (nat_lit 33554432) (nat_lit 4) (nat_lit 2) u s fun u s =>
  step (nat_lit 16777216) (nat_lit 2) (nat_lit 1) u s fun u s =>
  fo s k

/-- `n / d` rounded to 24 places, ties to even. -/
def make (neg : Bool) (n d : Nat) : Fx :=
  fo n fun n => fo (Nat.div n d) fun u => bo (Nat.ble (nat_lit 2582249878086908589655919172003011874329705792829223512830659356540647622016841194629645353280137831435903171972747493376) u) .bad <|
  places u fun s => fo (Nat.pow (nat_lit 2) s) fun p => fo (Nat.mul d p) fun m => fo (Nat.div n m) fun t => fo (Nat.mul (nat_lit 2) (Nat.mod n m)) fun r =>
  fo (Nat.mul (bo (Nat.ble m r) (bo (Nat.ble r m) (Nat.add t (Nat.mod t (nat_lit 2))) (Nat.succ t)) t) p) fun k =>
  bo (Nat.ble (nat_lit 242833611528216133864932738352939863330300854881517440156476551217363035650651062272) k) .bad (bo neg (.val true k) (.val false k))

def not (s : Bool) : Bool := bo s false true

def zero : Fx := .val false (nat_lit 0)
def one : Fx := .val false (nat_lit 713623846352979940529142984724747568191373312)

def add (x y : Fx) : Fx :=
  match x with
  | .bad => .bad
  | .val s a => match y with
    | .bad => .bad
    | .val t b => bo (bo s t (not t)) (make s (Nat.add a b) (nat_lit 1)) (bo (Nat.ble a b) (make t (Nat.sub b a) (nat_lit 1)) (make s (Nat.sub a b) (nat_lit 1)))

def neg : Fx → Fx
  | .val s a => .val (not s) a
  | .bad => .bad

def sub (x y : Fx) : Fx := add x (neg y)

def mul (x y : Fx) : Fx :=
  match x with
  | .bad => .bad
  | .val s a => match y with
    | .bad => .bad
    | .val t b => make (bo s (not t) t) (Nat.mul a b) (nat_lit 713623846352979940529142984724747568191373312)

def div (x y : Fx) : Fx :=
  match x with
  | .bad => .bad
  | .val s a => match y with
    | .bad => .bad
    | .val t b => bo (Nat.beq b (nat_lit 0)) .bad (make (bo s (not t) t) (Nat.mul a (nat_lit 713623846352979940529142984724747568191373312)) b)

def isZero : Fx → Bool
  | .val _ a => Nat.beq a (nat_lit 0)
  | .bad => false

def ofInt : Int → Fx
  | .ofNat n => make false (Nat.mul n (nat_lit 713623846352979940529142984724747568191373312)) (nat_lit 1)
  | .negSucc n => make true (Nat.mul (Nat.succ n) (nat_lit 713623846352979940529142984724747568191373312)) (nat_lit 1)

/-- An element of a list. -/
def nth (l : List Fx) (n : Nat) : Fx := List.rec (motive := fun _ => Nat → Fx) (fun _ => .bad) (fun a _ ih n => Nat.rec a (fun m _ => ih m) n) l n

/-- A matrix from the list of its elements, `c` in a row. -/
def grid (l : List Fx) (c : Nat) : Mat Fx := fun i j => nth l (Nat.add (Nat.mul c i) j)

def collect {β : Type} (m : Mat Fx) (c : Nat) : Nat → List Fx → (List Fx → β) → β
  | 0, l, k => k l
  | n + 1, l, k => match m (n / c) (n % c) with
    | .bad => collect m c n (.bad :: l) k
    | .val s a => collect m c n (.val s a :: l) k

/-- `k m` with the elements of `m` computed first. -/
def freeze {β : Type} (m : Mat Fx) (r c : Nat) (k : Mat Fx → β) : β := collect m c (r * c) [] fun l => k (grid l c)

/-! ## The matrix code -/

def dot3 (a b c d e f : Fx) : Fx := add (add (add zero (mul a b)) (mul c d)) (mul e f)

def product (c t : Mat Fx) : Mat Fx := fun i j => dot3 (c i 0) (t 0 j) (c i 1) (t 1 j) (c i 2) (t 2 j)

def total (m : Mat Fx) (i : Nat) : Fx := add (add (add zero (m i 0)) (m i 1)) (m i 2)

def normal (m : Mat Fx) : Mat Fx := fun i j => bo (isZero (total m i)) zero (div (m i j) (total m i))

def setup (m : Mat Fx) : Mat Fx := fun i j =>
  bo (Nat.ble j (nat_lit 2)) (add (dot3 (m 0 i) (m 0 j) (m 1 i) (m 1 j) (m 2 i) (m 2 j)) (mul (m 3 i) (m 3 j))) (bo (Nat.beq j (i + 3)) one zero)

def pivot (r : Nat) (m : Mat Fx) : Mat Fx := fun i j => bo (Nat.beq i r) (div (m i j) (m i i)) (sub (m i j) (mul (div (m r j) (m r r)) (m i r)))

def pinv (t m : Mat Fx) : Mat Fx := fun j i => dot3 (t j 3) (m i 0) (t j 4) (m i 1) (t j 5) (m i 2)

def scaled (p t : Mat Fx) (w : Nat → Fx) : Mat Fx := fun i j =>
  add (add (add zero (div (mul (p 0 j) (t i 0)) (w i))) (div (mul (p 1 j) (t i 1)) (w i))) (div (mul (p 2 j) (t i 2)) (w i))

/-- `rgb_to_xyz` -/
def table : Mat Fx := grid [.val false (nat_lit 294336293286284993959235579047030785327497216), .val false (nat_lit 255177619348124158399260819347605194857775104), .val false (nat_lit 128754159808702664364395652169235098882801664), .val false (nat_lit 151767094733550879151306247034325186769846272), .val false (nat_lit 510355238696248316798521638695210389715550208), .val false (nat_lit 51501518240092727718978590610440232827355136), .val false (nat_lit 13797203162784008442351056560335658011328512), .val false (nat_lit 85058968960639472561450980969006961531027456), .val false (nat_lit 678104662470222002305140748139108454627278848)] 3

/-- `d65_white` -/
def white : Mat Fx := grid [.val false (nat_lit 681296681213123865561658933644122156334841856), .val false (nat_lit 713623846352979940529142984724747568191373312), .val false (nat_lit 777015048486681566887735040343211668303511552)] 3

/-- The balance: `neutralwb` -/
def balance (m : Mat Fx) : Mat Fx := fun _ i => div (div one (total m i)) (div one (total m 1))

/-- The results for the matrix `c` of a camera. -/
def run {β : Type} (c : List Int) (k : Mat Fx → Mat Fx → β) : β :=
  freeze (fun i j => ofInt (c.getD (3 * i + j) 0)) 4 3 fun cam =>
  freeze (product cam table) 4 3 fun r =>
  freeze (normal r) 4 3 fun m =>
  freeze (setup m) 3 6 fun temp =>
  freeze (pivot 0 temp) 3 6 fun temp =>
  freeze (pivot 1 temp) 3 6 fun temp =>
  freeze (pivot 2 temp) 3 6 fun temp =>
  freeze (pinv temp m) 3 4 fun p =>
  freeze (scaled p table (white 0)) 3 4 fun x =>
  freeze (balance r) 1 4 fun w => k x w

end

end Fast

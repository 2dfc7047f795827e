/-
Executable checks of the shipped tables: natural-number functions that the kernel evaluates (`decide +kernel`) on the transcribed data.
Their meaning is proved in Lemmas/Shipped.lean.
-/
set_option autoImplicit false
namespace SF

/-- `2^52` times the double with the bits `w`, if its biased exponent is at least 1023. -/
def sig (w : Nat) : Nat := Nat.mul (Nat.add 0x10000000000000 (Nat.mod w 0x10000000000000)) (Nat.pow 2 (Nat.sub (Nat.div w 0x10000000000000) 1023))

/-- `1 ≤ double w`, and `sqrt S` is between the double `w` and the next one (below the next one, for `n < 49`). -/
def bracketOk (n w S : Nat) : Bool :=
  Nat.ble 0x3ff0000000000000 w && Nat.ble w 0x7fe0000000000000 &&
    (Nat.ble (Nat.pow (sig w) 2) (Nat.mul S (Nat.pow 2 104)) && Nat.ble (Nat.mul S (Nat.pow 2 104)) (Nat.pow (sig (Nat.succ w)) 2)) &&
    (Nat.ble 49 n || Nat.ble (Nat.succ (Nat.mul S (Nat.pow 2 104))) (Nat.pow (sig (Nat.succ w)) 2))

/-- From the square of the coefficient for `p` to the one for `p + 1`. -/
def nextSq (n p' p S : Nat) : Nat :=
  if p < p' then Nat.div (Nat.mul S (Nat.pow (Nat.sub p' p) 2)) (Nat.mul (Nat.succ p) (Nat.sub n p))
  else Nat.div (Nat.mul S (Nat.mul (Nat.succ p) (Nat.sub n p))) (Nat.pow (Nat.sub (Nat.succ p) p') 2)

/-- The doubles for one pair `(n, p')`. -/
def rowOk (n p' : Nat) : Nat → Nat → Nat → Nat → Bool
  | 0, _, _, N => Nat.beq N 0
  | k + 1, p, S, N => bracketOk n (Nat.mod N 0x10000000000000000) S && rowOk n p' k (Nat.succ p) (nextSq n p' p S) (Nat.div N 0x10000000000000000)

/-- The rows for one `n`, from `p'` on. -/
def blockOk (n : Nat) : List Nat → Nat → Nat → Bool
  | [], p', _ => Nat.beq p' (Nat.succ n)
  | N :: rows, p', S => rowOk n p' (Nat.succ n) 0 S N && blockOk n rows (Nat.succ p') (Nat.div (Nat.mul S (Nat.sub n p')) (Nat.succ p'))

/-- The binomial coefficients `C = binomial(n, p)`: the nearest double, relative error at most `2^-53`, exact up to `2^53`. -/
def binRowOk (n : Nat) : Nat → Nat → Nat → Nat → Bool
  | 0, _, _, N => Nat.beq N 0
  | k + 1, p, C, N =>
    (Nat.ble 0x3ff0000000000000 (Nat.mod N 0x10000000000000000) && Nat.ble (Nat.mod N 0x10000000000000000) 0x7fe0000000000000 &&
      (Nat.ble (Nat.mul 2 (sig (Nat.mod N 0x10000000000000000))) (Nat.mul C 0x20000000000001) &&
       Nat.ble (Nat.mul C 0x1fffffffffffff) (Nat.mul 2 (sig (Nat.mod N 0x10000000000000000))) &&
       (Nat.ble 0x20000000000001 C && Nat.ble (Nat.add (sig (Nat.pred (Nat.mod N 0x10000000000000000))) (sig (Nat.mod N 0x10000000000000000))) (Nat.mul C 0x20000000000000) &&
          Nat.ble (Nat.mul C 0x20000000000000) (Nat.add (sig (Nat.mod N 0x10000000000000000)) (sig (Nat.succ (Nat.mod N 0x10000000000000000)))) && Nat.ble 0x3ff0000000000001 (Nat.mod N 0x10000000000000000) ||
        Nat.beq (sig (Nat.mod N 0x10000000000000000)) (Nat.mul C 0x10000000000000)))) &&
    binRowOk n k (Nat.succ p) (Nat.div (Nat.mul C (Nat.sub n p)) (Nat.succ p)) (Nat.div N 0x10000000000000000)

def binOk : List Nat → Nat → Bool
  | [], n => Nat.beq n 65
  | N :: rows, n => binRowOk n (Nat.succ n) 0 1 N && binOk rows (Nat.succ n)

/-- The ladder coefficients `sqrt((n - p) (p + 1))`: rounded down. -/
def ladRowOk (n : Nat) : Nat → Nat → Nat → Bool
  | 0, _, N => Nat.beq N 0
  | k + 1, p, N =>
    (if p = n then Nat.beq (Nat.mod N 0x10000000000000000) 0
      else bracketOk 0 (Nat.mod N 0x10000000000000000) (Nat.mul (Nat.sub n p) (Nat.succ p))) &&
    ladRowOk n k (Nat.succ p) (Nat.div N 0x10000000000000000)

def ladOk : List Nat → Nat → Bool
  | [], n => Nat.beq n 65
  | N :: rows, n => ladRowOk n (Nat.succ n) 0 N && ladOk rows (Nat.succ n)

end SF

import Verif.Spec.Decimal
import Verif.Lemmas.Date

namespace Verif
open Spec

theorem numeral_eq (ds : Str) : numeral ds = digitsVal 0 ds := rfl

theorem digitsVal_append (a b : Str) (acc : Nat) : digitsVal acc (a ++ b) = digitsVal (digitsVal acc a) b := by
  simp [digitsVal, List.foldl_append]

theorem digitsVal_acc : ∀ (b : Str) (acc : Nat), digitsVal acc b = acc * 10 ^ b.length + digitsVal 0 b
  | [], acc => by simp [digitsVal]
  | c :: b, acc => by
    have h1 := digitsVal_acc b (acc * 10 + (c.toNat - 48))
    have h2 := digitsVal_acc b (0 * 10 + (c.toNat - 48))
    simp only [digitsVal, List.foldl_cons, List.length_cons] at h1 h2 ⊢
    rw [h1, h2, Nat.pow_succ, Nat.add_mul, Nat.zero_mul, Nat.zero_add, Nat.mul_assoc, Nat.mul_comm 10, Nat.add_assoc]

theorem numeral_append (a b : Str) : numeral (a ++ b) = numeral a * 10 ^ b.length + numeral b := by
  rw [numeral_eq, digitsVal_append, digitsVal_acc]; rfl

theorem numeral_zeros (k : Nat) : numeral (List.replicate k '0') = 0 := digitsVal_replicate k

theorem numeral_natStr (n : Nat) : numeral (natStr n) = n := natStr_val n

theorem numeral_padNat (w n : Nat) : numeral (padNat w n) = n := padNat_val w n

theorem natStr_ne_nil (n : Nat) : natStr n ≠ [] := by
  unfold natStr natStrAux
  split <;> simp

end Verif

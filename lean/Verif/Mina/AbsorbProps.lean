import Verif.Mina.BitsLemmas
import Verif.Common.Primes

/-!
# C132: building the input of the hash
-/

namespace Verif.Mina
open Primes

/-- C132: no step of building the input of the hash loses what was there before or what is added: the input after it determines both -/
theorem C132_absorb {p : ℕ} (r r' : RoInput p) :
    (∀ b b' : Bool, r.addBit b = r'.addBit b' → r = r' ∧ b = b') ∧
    (∀ f f' : ZMod p, r.addFp f = r'.addFp f' → r = r' ∧ f = f') ∧
    (∀ x x' : UInt32, r.addUint32 x = r'.addUint32 x' → r = r' ∧ x = x') ∧
    (∀ x x' : UInt64, r.addUint64 x = r'.addUint64 x' → r = r' ∧ x = x') := by
  have e : r.fields = r'.fields → r.bits = r'.bits → r = r' := by
    cases r; cases r'; rintro rfl rfl; rfl
  refine ⟨fun x x' h => ?_, fun x x' h => ?_, fun x x' h => ?_, fun x x' h => ?_⟩
  · obtain ⟨h1, h2⟩ := RoInput.mk.inj h
    obtain ⟨h3, h4⟩ := List.append_inj' h2 rfl
    exact ⟨e h1 h3, (List.cons.inj h4).1⟩
  · obtain ⟨h1, h2⟩ := RoInput.mk.inj h
    obtain ⟨h3, h4⟩ := List.append_inj' h1 rfl
    exact ⟨e h3 h2, (List.cons.inj h4).1⟩
  · obtain ⟨h1, h2⟩ := RoInput.mk.inj h
    obtain ⟨h3, h4⟩ := List.append_inj' h2 (by rw [bitsOf_length, bitsOf_length])
    refine ⟨e h1 h3, UInt32.toNat_inj.1 ?_⟩
    have := congrArg bitsNat h4
    rwa [bitsNat_bitsOf, bitsNat_bitsOf, Nat.mod_eq_of_lt x.toNat_lt, Nat.mod_eq_of_lt x'.toNat_lt] at this
  · obtain ⟨h1, h2⟩ := RoInput.mk.inj h
    obtain ⟨h3, h4⟩ := List.append_inj' h2 (by rw [bitsOf_length, bitsOf_length])
    refine ⟨e h1 h3, UInt64.toNat_inj.1 ?_⟩
    have := congrArg bitsNat h4
    rwa [bitsNat_bitsOf, bitsNat_bitsOf, Nat.mod_eq_of_lt x.toNat_lt, Nat.mod_eq_of_lt x'.toNat_lt] at this

example : (RoInput.init (p := pallasp)).addBit true ≠ (RoInput.init (p := pallasp)).addBit false :=
  fun h => Bool.noConfusion ((C132_absorb _ _).1 _ _ h).2

end Verif.Mina

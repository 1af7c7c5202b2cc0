import Verif.Model.IdxParser
import Verif.Spec.Idx
import Verif.Lemmas.Py
/-! # Helper lemmas for index strings -/

namespace Pgkyl

open Spec

variable {F : Type} [LT F] [DecidableLT F] (pf : List Char → Option F)

/-- `s` is a decimal index such as `12` or `007`. -/
theorem stringToIndex_digits {s : List Char} (h : isDigitStr s = true) (array : Option (NArr F))
    (nodal : Bool) : stringToIndex pf s array nodal = .ok (natOfDigits s : Int) := by
  simp [stringToIndex, h]

theorem stringToIndex_dec (n : Nat) (array : Option (NArr F)) (nodal : Bool) :
    stringToIndex pf (dec n) array nodal = .ok (n : Int) := by
  rw [dec, stringToIndex_digits pf (isDigitStr_toDigits n), natOfDigits_toDigits]

theorem dec_comma (n : Nat) : ',' ∉ dec n := isDigitStr_notMem (isDigitStr_toDigits n) (by decide)
theorem dec_colon (n : Nat) : ':' ∉ dec n := isDigitStr_notMem (isDigitStr_toDigits n) (by decide)
theorem dec_ne_nil (n : Nat) : dec n ≠ [] := toDigits_ne_nil n

theorem pyInt_dec (n : Nat) : pyInt (dec n) = some (n : Int) := by
  rw [dec, pyInt_of_isDigitStr (isDigitStr_toDigits n), natOfDigits_toDigits]

theorem splitOn_two {a b : List Char} (ha : ':' ∉ a) (hb : ':' ∉ b) :
    splitOn ':' (a ++ ':' :: b) = [a, b] := by
  rw [splitOn_append ha, splitOn_notMem hb]

theorem notMem_comma_two {a b : List Char} (ha : ',' ∉ a) (hb : ',' ∉ b) :
    ',' ∉ a ++ ':' :: b := by
  simp [ha, hb]

theorem idxParser_slice {a b : List Char} (ha : ':' ∉ a) (hb : ':' ∉ b) (ha' : ',' ∉ a)
    (hb' : ',' ∉ b) (array : Option (NArr F)) (nodal : Bool) :
    idxParser pf (.str (a ++ ':' :: b)) array nodal = (do
        let (a, b) ← sliceTexts array a b
        let i ← stringToIndex pf a array nodal
        let j ← stringToIndex pf b array nodal
        return .slice i j) := by
  simp only [idxParser, splitOn_notMem (notMem_comma_two ha' hb'), splitOn_two ha hb]
  rfl

theorem findNearestIndex_ofList (l : List F) (v : F) :
    findNearestIndex (some (NArr.ofList l)) v =
      if searchsorted l v = l.length then .ok ((searchsorted l v : Int) - 2)
      else if searchsorted l v > 0 then .ok ((searchsorted l v : Int) - 1)
      else .ok (searchsorted l v : Int) := by
  simp only [findNearestIndex, searchArr, lenArr, NArr.len, NArr.ofList, bind, Except.bind, pure,
    Except.pure, List.length_singleton, if_true, Nat.cast_inj]

theorem findCellIndex_ofList (l : List F) (v : F) :
    findCellIndex (some (NArr.ofList l)) v = .ok (searchsorted l v : Int) := rfl

theorem pyStr_dec (n : Nat) : pyStr (n : Int) = dec n := pyStr_ofNat n

theorem pyStr_zero_dec : pyStr 0 = dec 0 := pyStr_ofNat 0

end Pgkyl

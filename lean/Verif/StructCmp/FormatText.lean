import Verif.StructCmp.OwnerLemmas
import Verif.Matcher.Lemmas

/-! # StructCmp: what the messages of comparators print -/

namespace EasyMock.StructCmp

open EasyMock.Types
open EasyMock.Parser (CTy Q Decls)
open EasyMock.Printf (Prints Shows Passes textOf Arg Scalar decimal addressText Rank Conv)

theorem article_free (kw : Kw) : Free (article kw) := by cases kw <;> (unfold Free; decide +kernel)

theorem lit_param : "Parameter '%s' which is a".toList = "Parameter '".toList ++ '%' :: 's' :: "' which is a".toList := by decide +kernel
theorem lit_value : " with value '%".toList = " with value '".toList ++ ['%'] := by decide +kernel
theorem lit_expect : "', was expecting '%".toList = "', was expecting '".toList ++ ['%'] := by decide +kernel
theorem lit_idx : "[idx]' at idx == %d".toList = "[idx]' at idx == ".toList ++ ['%', 'd'] := by decide +kernel

theorem decimal_nat (n : Nat) : decimal (Int.ofNat n) = (toString n).toList := by
  have e : (toString n).toList = Nat.toDigits 10 n := by simp [toString, Nat.repr]
  rw [e]
  unfold decimal
  rw [if_neg (by simp)]
  rfl

variable {R : Type} {real : Bool → R → List Char}

/-- The two values at the end of the message. -/
theorem prints_values {F : String} {k : Conv} {a b : Arg R} {x y : List Char} (hc : ∀ r, Printf.conversion (F.toList ++ r) = some (k, r))
    (h1 : Shows real k a x) (h2 : Shows real k b y) :
    Prints real (" with value '%" ++ F ++ "', was expecting '%" ++ F ++ "'").toList [a, b]
      (" with value '".toList ++ (x ++ ("', was expecting '".toList ++ (y ++ "'".toList)))) := by
  have e : (" with value '%" ++ F ++ "', was expecting '%" ++ F ++ "'").toList =
      " with value '".toList ++ '%' :: (F.toList ++ ("', was expecting '".toList ++ '%' :: (F.toList ++ "'".toList))) := by
    simp only [String.toList_append, lit_value, lit_expect, List.append_assoc, List.cons_append, List.nil_append]
  rw [e]
  refine prints_lit (.conv (hc _) h1 (prints_lit (.conv (hc _) h2 ?_) _ (by decide +kernel))) _ (by decide +kernel)
  have := prints_lit (real := real) (r := []) (as := []) (o := []) .done "'".toList (by decide +kernel)
  simpa only [List.append_nil] using this

/-- The whole message. -/
theorem prints_message {F : String} {k : Conv} {a b : Arg R} {x y : List Char} {c : Check} {art owner p : String} {idx : Nat}
    (hc : ∀ r, Printf.conversion (F.toList ++ r) = some (k, r)) (h1 : Shows real k a x) (h2 : Shows real k b y)
    (ha : Free art) (ho : Free owner) (hf : Free c.field) (hi : idx < 2 ^ 31) :
    Prints real (formatText art c owner (some F)).toList (formatArgs c p.toList idx a b)
      (message (fun _ s => s) art owner (some F)
        ⟨p, c.field, if c.array then some idx else none, String.ofList x, String.ofList y⟩).toList := by
  have hv := prints_values hc h1 h2
  have start : ∀ {r : List Char} {as : List (Arg R)} {o : List Char}, Prints real r as o →
      Prints real ("Parameter '%s' which is a".toList ++ (art.toList ++ (" of type '".toList ++ (owner.toList ++ r)))) (.string p.toList :: as)
        ("Parameter '".toList ++ (p.toList ++ ("' which is a".toList ++ (art.toList ++ (" of type '".toList ++ (owner.toList ++ o)))))) := by
    intro r as o h
    rw [lit_param, List.append_assoc, List.cons_append, List.cons_append]
    refine prints_lit (.conv rfl .string ?_) _ (by decide +kernel)
    exact prints_lit (prints_lit (prints_lit (prints_lit h _ ho) _ (by decide +kernel)) _ ha) _ (by decide +kernel)
  have shown : (formatText art c owner (some F)).toList = "Parameter '%s' which is a".toList ++ (art.toList ++ (" of type '".toList ++ (owner.toList ++
      ("' has field ".toList ++ ((if c.array then "array " else "").toList ++ ("'".toList ++ (c.field.toList ++
        ((if c.array then "[idx]' at idx == %d" else "'").toList ++ (" with value '%" ++ F ++ "', was expecting '%" ++ F ++ "'").toList)))))))) := by
    unfold formatText
    simp only [String.toList_append, List.append_assoc, Option.getD_some]
  rw [shown]
  unfold formatArgs
  cases harr : c.array with
  | false =>
    have e : (message (fun _ s => s) art owner (some F) ⟨p, c.field, if false = true then some idx else none, String.ofList x, String.ofList y⟩).toList =
        "Parameter '".toList ++ (p.toList ++ ("' which is a".toList ++ (art.toList ++ (" of type '".toList ++ (owner.toList ++
          ("' has field ".toList ++ ("".toList ++ ("'".toList ++ (c.field.toList ++ ("'".toList ++
          (" with value '".toList ++ (x ++ ("', was expecting '".toList ++ (y ++ "'".toList)))))))))))))) := by
      have l1 : "' has field '".toList = "' has field ".toList ++ "'".toList := by decide +kernel
      have l2 : "' with value '".toList = "'".toList ++ " with value '".toList := by decide +kernel
      simp only [message, String.toList_append, String.toList_ofList, List.append_assoc, l1, l2, String.toList_empty, List.nil_append,
        Bool.false_eq_true, if_false]
    rw [e]
    exact start (prints_lit (prints_lit (prints_lit (prints_lit (prints_lit hv _ (by decide +kernel)) _ hf) _ (by decide +kernel)) _ (by decide +kernel)) _
      (by decide +kernel))
  | true =>
    have e : (message (fun _ s => s) art owner (some F) ⟨p, c.field, if true = true then some idx else none, String.ofList x, String.ofList y⟩).toList =
        "Parameter '".toList ++ (p.toList ++ ("' which is a".toList ++ (art.toList ++ (" of type '".toList ++ (owner.toList ++
          ("' has field ".toList ++ ("array ".toList ++ ("'".toList ++ (c.field.toList ++ ("[idx]' at idx == ".toList ++ (decimal (Int.ofNat idx) ++
          (" with value '".toList ++ (x ++ ("', was expecting '".toList ++ (y ++ "'".toList))))))))))))))) := by
      have l1 : "' has field array '".toList = "' has field ".toList ++ ("array ".toList ++ "'".toList) := by decide +kernel
      rw [decimal_nat]
      simp only [message, String.toList_append, String.toList_ofList, List.append_assoc, l1, if_true]
    rw [e]
    refine start (prints_lit (prints_lit (prints_lit (prints_lit ?_ _ hf) _ (by decide +kernel)) _ (by decide +kernel)) _ (by decide +kernel))
    rw [if_pos rfl, lit_idx, List.append_assoc]
    exact prints_lit (.conv rfl (.num ⟨rfl, Or.inr ⟨by simp, by simp only [Rank.bits]; omega⟩⟩) hv) _ (by decide +kernel)

end EasyMock.StructCmp

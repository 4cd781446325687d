import Verif.StructCmp.Model
import Verif.StructCmp.PrintfSpec

/-! # StructCmp: the call of `easyMock_snprintf` in a comparator -/

namespace EasyMock.StructCmp

open EasyMock.Printf (Arg)

/-- The format, GEN:528 (members which are not arrays) and GEN:544 with 273-274. -/
def formatText (article : String) (k : Check) (owner : String) (format : Option String) : String :=
  "Parameter '%s' which is a" ++ article ++ " of type '" ++ owner ++ "' has field " ++ (if k.array then "array " else "") ++ "'" ++ k.field ++
    (if k.array then "[idx]' at idx == %d" else "'") ++ " with value '%" ++ format.getD "" ++ "', was expecting '%" ++ format.getD "" ++ "'"

/-- The arguments behind the format: the name of the parameter, the `unsigned int idx` of the loop (GEN:276-277, 535), and the
    member of the two objects. -/
def formatArgs {R : Type} (k : Check) (param : List Char) (idx : Nat) (cur exp : Arg R) : List (Arg R) :=
  .string param :: ((if k.array then [.num false .int idx] else []) ++ [cur, exp])

end EasyMock.StructCmp

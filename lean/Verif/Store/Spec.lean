import Verif.Value.Model
/-
What a history of definitions means, without reference to the store.
-/
namespace Libasm.Store.Spec

/-- One definition: `name equ value` or `name set value` (`variable`). -/
structure Def where
  name : List Char
  isVar : Bool
  value : Value

/-- What can be done to a symbol table. -/
inductive Op
  | define (d : Def)
  /-- a function definition: name, parameters, body -/
  | function (name : List Char) (params : List (List Char)) (body : List Char)
  | clearFunctions
  | clear

/-- The definitions since the last `clear`. -/
def history : List Op → List Def
  | ops => ops.foldl (fun h o => match o with
      | .define d => h ++ [d]
      | .clear => []
      | _ => h) []

/-- Values a symbol can have: 32-bit numbers, signed or unsigned. -/
def Fits (v : Value) : Prop :=
  if v.type = .signed then
    -2147483648 ≤ (if v.bits < 2 ^ 63 then (v.bits : Int) else v.bits - 2 ^ 64) ∧
    (if v.bits < 2 ^ 63 then (v.bits : Int) else v.bits - 2 ^ 64) ≤ 4294967295
  else v.bits ≤ 4294967295

instance (v : Value) : Decidable (Fits v) := by unfold Fits; infer_instance

/-- The definitions of a name that have a possible value. -/
def about (name : List Char) (h : List Def) : List Def :=
  h.filter fun d => decide (d.name = name ∧ Fits d.value)

/-- Whether a name is a variable: what its first definition says. -/
def kind (h : List Def) (name : List Char) : Option Bool :=
  (about name h).head?.map Def.isVar

/-- The value of a name: the last definition of its kind. -/
def value (h : List Def) (name : List Char) : Option Value :=
  ((about name h).filter fun d => decide (some d.isVar = kind h name)).getLast?.map Def.value

/-- The verdict on one more definition after a history. -/
inductive Verdict | accepted | conflict | tooLarge
deriving DecidableEq

def verdict (h : List Def) (d : Def) : Verdict :=
  if kind h d.name = some (!d.isVar) then .conflict
  else if Fits d.value then .accepted else .tooLarge

/-- The function definitions since the functions were last cleared, in order. -/
def functions : List Op → List (List Char × List (List Char) × List Char)
  | ops => ops.foldl (fun h o => match o with
      | .function name params body => h ++ [(name, params, body)]
      | .clear | .clearFunctions => []
      | .define _ => h) []

/-- Parameters and body of a function: its first definition counts. -/
def function (h : List (List Char × List (List Char) × List Char)) (name : List Char) :
    Option (List (List Char) × List Char) :=
  (h.find? fun f => decide (f.1 = name)).map Prod.snd

/-- The environment of a function body: parameters have the values of the arguments, other names
what they have outside. -/
def env {V : Type} (params : List (List Char)) (args : List V) (outer : List Char → Option V)
    (name : List Char) : Option V :=
  match (params.zip args).find? (fun p => decide (p.1 = name)) with
  | some p => some p.2
  | none => outer name

end Libasm.Store.Spec

/-!
Message objects and their repeated fields, monero_glue/protobuf.py 127-205: lists are held by reference. Fields are numbered; the elements of lists and
plain values are numbers (sub-messages stand for their identity). `none` is an exception.
-/

namespace Verif.MsgObj

/-- What an attribute holds. -/
inductive Val
  | none
  | num (n : Int)
  | ref (r : Nat)

/-- A value in the source of the caller; a list is a new one. -/
inductive Given
  | none
  | num (n : Int)
  | list (l : List Int)

/-- Lists and messages created so far; `fields` is `get_fields()` of the class (field, repeated), `dict` the attributes. -/
structure World where
  nl : Nat
  list : Nat → List Int
  no : Nat
  fields : Nat → List (Nat × Bool)
  dict : Nat → Nat → Option Val

/-- Nothing created. -/
def World.empty : World := ⟨0, fun _ => [], 0, fun _ => [], fun _ _ => Option.none⟩

/-- `setattr(m, f, v)`. -/
def setVal (d : Nat → Nat → Option Val) (m f : Nat) (v : Val) : Nat → Nat → Option Val := fun m' f' => if m' = m ∧ f' = f then some v else d m' f'

/-- `m.f = v`. -/
def World.put (w : World) (m f : Nat) : Given → World
  | .none => { w with dict := setVal w.dict m f .none }
  | .num n => { w with dict := setVal w.dict m f (.num n) }
  | .list l => { w with nl := w.nl + 1, list := fun r => if r = w.nl then l else w.list r, dict := setVal w.dict m f (.ref w.nl) }

/-- 195-202 `_fill_missing`. -/
def World.fill (m : Nat) : List (Nat × Bool) → World → World
  | [], w => w
  | (f, rep) :: fs, w => World.fill m fs (if (w.dict m f).isSome then w else w.put m f (if rep then .list [] else .none))

/-- 135-138 `__init__`; `fs` are the fields of the class. -/
def World.create (w : World) (fs : List (Nat × Bool)) (kwargs : List (Nat × Given)) : World :=
  let w1 : World := { w with no := w.no + 1, fields := fun m => if m = w.no then fs else w.fields m, dict := fun m f => if m = w.no then Option.none else w.dict m f }
  World.fill w.no fs (kwargs.foldl (fun w kv => w.put w1.no.pred kv.1 kv.2) w1)

/-- `l += xs` and `l.append(x)` for the list `m.f`, 165-171 and 184-191: made when the attribute is missing; anything but a list raises. -/
def World.grow (w : World) (m f : Nat) (xs : List Int) : Option World :=
  match w.dict m f with
  | some (.ref r) => some { w with list := fun r' => if r' = r then w.list r ++ xs else w.list r' }
  | Option.none => some (w.put m f (.list xs))
  | _ => Option.none

/-- Steps of the program. -/
inductive Event
  | create (fs : List (Nat × Bool)) (kwargs : List (Nat × Given))
  | set (m f : Nat) (v : Given)
  | extend (m f : Nat) (xs : List Int)
  | add (m f : Nat) (item : Int)
  | copy (m p : Nat)

/-- 163-173 `_extend_f(xs)`, 175-193 `_add_f()`, 204-205 `CopyFrom`. Only existing messages have methods. -/
def step (w : World) : Event → Option World
  | .create fs kwargs => some (w.create fs kwargs)
  | .set m f v => if m < w.no then some (w.put m f v) else none
  | .extend m f xs => if m < w.no then w.grow m f xs else none
  | .add m f item => if m < w.no then
      match (w.fields m).find? (fun v => v.1 == f) with
      | some (_, true) => w.grow m f [item]
      | _ => none
    else none
  | .copy m p => if m < w.no ∧ p < w.no then some { w with dict := fun m' f => if m' = m then w.dict p f else w.dict m' f } else none

/-- A program whose exceptions are caught. -/
def run (w : World) (es : List Event) : World := es.foldl (fun w e => (step w e).getD w) w

end Verif.MsgObj

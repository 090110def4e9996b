import Mathlib.Data.List.Basic
import Mathlib.Data.List.GetD
import Verif.Model.Format

/-!
# Distributions and generators (app/sidisgen/generator.ipp, generator.cpp 223-351)

Objects are modelled at the level of their lifetimes.  A `Dist` has its tag, its flag and at most
one engine that is alive; each engine carries a number that no other engine ever has, and a ghost
log records when engines are constructed, used and destroyed.  Undefined behaviour (use or
destruction of an engine that is not alive or is not the one named by the tag) is `none`.

Two things are not determined by the code and are arguments:
* whether the store `_dist_valid = false` made by the destructor is still there for code that looks
  at the storage later (`Dist::read` does).  It need not be: the object is dead, and compilers remove
  such stores.
* how often an object is moved on the way out of `build_dist_approx` (copy elision).

In C++ any access to a member of a destroyed object is undefined behaviour, and `Dist::read` makes
such accesses in every call that gets past the header.  The model does not count these; it follows
the storage.
-/

namespace Sidis.Dist

/-- `DistType` (generator.hpp 105-114). -/
inductive DistType
  | uniform | foam | bubble | vegas
  deriving DecidableEq, Repr

/-- The values of the enumerators (generator.hpp 105-114). -/
def DistType.code : DistType → ℕ
  | uniform => 0
  | foam => 1
  | bubble => 2
  | vegas => 3

/-- The cases of `switch (dist_type_read)` (generator.ipp 165-192); `none` is `default`. -/
def DistType.ofCode (c : ℕ) : Option DistType :=
  if c = 0 then some uniform
  else if c = 1 then some foam
  else if c = 2 then some bubble
  else if c = 3 then some vegas
  else none

/-- The library `bubble` (external/bubble, not in the repository): `CellGenerator` with its default
constructor, the state it leaves behind when moved from, and its own serialisation.  `read` gives the
new state, the rest of the stream and whether `failbit` is set. -/
structure Lib (B : Type) where
  empty : B
  movedFrom : B → B
  write : B → List UInt8
  read : B → List UInt8 → B × List UInt8 × Bool

variable {B : Type}

/-! ### Ghost state -/

/-- Events in the life of an engine. -/
inductive Ev
  | ctor (id : ℕ) | use (id : ℕ) | dtor (id : ℕ)
  deriving DecidableEq, Repr

/-- The number of the next engine and the log. -/
structure World where
  next : ℕ
  log : List Ev
  deriving DecidableEq, Repr

@[inherit_doc Ev] def World.put (w : World) (e : Ev) : World := ⟨w.next, w.log ++ [e]⟩

/-- An engine that is alive; `val` is its state, which only matters for `BubbleEngine`. -/
structure Engine (B : Type) where
  id : ℕ
  type : DistType
  val : B
  deriving DecidableEq, Repr

/-- The construction of an engine. -/
def Engine.make (t : DistType) (v : B) (w : World) : Engine B × World :=
  (⟨w.next, t, v⟩, ⟨w.next + 1, w.log ++ [.ctor w.next]⟩)

/-- `Dist` (generator.hpp 171-210). -/
structure Obj (B : Type) where
  type : DistType
  valid : Bool
  engine : Option (Engine B)
  deriving DecidableEq, Repr

/-- The member of the union named by the tag, if it is alive. -/
def Obj.live (o : Obj B) : Option (Engine B) :=
  o.engine.filter fun e => e.type = o.type

/-! ### Dist -/

/-- `Dist::Dist(DistType)` (generator.ipp 8-32).  `throws`: the default constructor of
`BubbleEngine` throws (then the `Dist` is not constructed); the others are empty. -/
def Obj.make (L : Lib B) (t : DistType) (throws : Bool) (w : World) : Option (Obj B) × World :=
  if t = .bubble ∧ throws then (none, w)
  else
    let (e, w) := Engine.make t L.empty w
    (some ⟨t, true, some e⟩, w)

/-- `Dist::Dist(Dist&&)` (generator.ipp 34-58): the new object, the old one and the world. -/
def Obj.move (L : Lib B) (o : Obj B) (w : World) : Option (Obj B × Obj B × World) :=
  match o.live with
  | none => none
  | some e =>
    let (e', w) := Engine.make o.type e.val (w.put (.use e.id))
    some (⟨o.type, true, some e'⟩, { o with engine := some { e with val := L.movedFrom e.val } }, w)

/-- `Dist::~Dist` (generator.ipp 60-83): what remains in the storage.  `kept`: the store to
`_dist_valid` does not survive. -/
def Obj.destroy (o : Obj B) (kept : Bool) (w : World) : Option (Obj B × World) :=
  if o.valid then
    match o.live with
    | none => none
    | some e => some (⟨o.type, kept, none⟩, w.put (.dtor e.id))
  else some (o, w)

/-- What a point is drawn from. -/
inductive Source (B : Type)
  | uniform
  | bubble (b : B)
  deriving DecidableEq, Repr

/-- `Dist::draw` (generator.ipp 85-110); the inner `none` is an exception. -/
def Obj.draw (o : Obj B) (w : World) : Option (Option (Source B) × World) :=
  match o.type with
  | .uniform => some (some .uniform, w)
  | .foam => some (none, w)
  | .bubble => match o.live with
    | none => none
    | some e => some (some (.bubble e.val), w.put (.use e.id))
  | .vegas => some (none, w)

/-- `Dist::prime` (generator.ipp 112-126): the source whose average weight is returned. -/
def Obj.prime (o : Obj B) (w : World) : Option (Option (Source B) × World) :=
  match o.type with
  | .uniform => some (some .uniform, w)
  | .foam => some (none, w)
  | .bubble => match o.live with
    | none => none
    | some e => some (some (.bubble e.val), w.put (.use e.id))
  | .vegas => some (none, w)

/-! ### Streams -/

/-- Unsigned integer of `k` bytes as it is in memory (little endian). -/
def leBytes : ℕ → ℕ → List UInt8
  | 0, _ => []
  | k + 1, n => UInt8.ofNat (n % 256) :: leBytes k (n / 256)

/-- The integer in memory. -/
def ofLe : List UInt8 → ℕ
  | [] => 0
  | b :: bs => b.toNat + 256 * ofLe bs

/-- An input stream: what is left, and whether `!is`. -/
structure IStream where
  data : List UInt8
  fail : Bool
  deriving DecidableEq, Repr

/-- `is.read(p, n)`: the bytes, or a failed stream. -/
def IStream.get (s : IStream) (n : ℕ) : Option (List UInt8) × IStream :=
  if s.fail then (none, s)
  else if s.data.length < n then (none, ⟨[], true⟩)
  else (some (s.data.take n), ⟨s.data.drop n, false⟩)

/-- An output stream: what has been written, whether `!os`, and how many more bytes can be written
(`none`: as many as you like). -/
structure OStream where
  data : List UInt8
  fail : Bool
  room : Option ℕ
  deriving DecidableEq, Repr

/-- `os.write(p, n)`. -/
def OStream.put (s : OStream) (bs : List UInt8) : OStream :=
  if s.fail then s
  else match s.room with
  | none => { s with data := s.data ++ bs }
  | some r =>
    if bs.length ≤ r then ⟨s.data ++ bs, false, some (r - bs.length)⟩
    else ⟨s.data ++ bs.take r, true, some 0⟩

/-- `sizeof(DistType)` and `sizeof(std::size_t)` (LP64). -/
def typeSize : ℕ := 4
@[inherit_doc typeSize] def dimSize : ℕ := 8

/-- `Dist::write` (generator.ipp 128-153).  Simplification: the library writes all its bytes in one
piece. -/
def Obj.write (L : Lib B) (D : ℕ) (o : Obj B) (os : OStream) (w : World) : Option (OStream × World) :=
  let os := os.put (leBytes typeSize o.type.code)
  if os.fail then some ({ os with fail := true }, w)
  else
    let os := os.put (leBytes dimSize D)
    if os.fail then some ({ os with fail := true }, w)
    else
      match o.type with
      | .uniform => some ({ os with fail := true }, w)
      | .foam => some ({ os with fail := true }, w)
      | .bubble =>
        match o.live with
        | none => none
        | some e => some (os.put (L.write e.val), w.put (.use e.id))
      | .vegas => some ({ os with fail := true }, w)

/-- Exceptions out of `Dist::read`: none, from the default constructor of `BubbleEngine`, or from its
`read`, which leaves the engine in some state. -/
inductive ReadFault (B : Type)
  | none
  | ctor
  | read (b : B)

/-- What `Dist::read` leaves behind. -/
structure ReadResult (B : Type) where
  obj : Obj B
  is : IStream
  threw : Bool
  world : World

/-- `Dist::read` (generator.ipp 155-197).  `kept` as in `destroy`. -/
def Obj.read (L : Lib B) (D : ℕ) (o : Obj B) (is : IStream) (fault : ReadFault B) (kept : Bool)
    (w : World) : Option (ReadResult B) :=
  match is.get typeSize with
  | (none, is) => some ⟨o, { is with fail := true }, false, w⟩
  | (some t, is) =>
    match is.get dimSize with
    | (none, is) => some ⟨o, { is with fail := true }, false, w⟩
    | (some d, is) =>
      if ofLe d ≠ D then some ⟨o, { is with fail := true }, false, w⟩
      else
        match o.destroy kept w with
        | none => none
        | some (o, w) =>
          match DistType.ofCode (ofLe t) with
          | some .bubble =>
            match fault with
            | .ctor => some ⟨{ o with type := .bubble }, is, true, w⟩
            | .none =>
              let (e, w) := Engine.make .bubble L.empty w
              let (b, rest, fail) := L.read L.empty is.data
              some ⟨⟨.bubble, true, some { e with val := b }⟩, ⟨rest, fail⟩, false, w.put (.use e.id)⟩
            | .read b =>
              let (e, w) := Engine.make .bubble L.empty w
              some ⟨⟨.bubble, true, some { e with val := b }⟩, is, true, w.put (.use e.id)⟩
          | some t =>
            let (e, w) := Engine.make t L.empty w
            some ⟨⟨t, true, some e⟩, { is with fail := true }, false, w⟩
          | none => some ⟨o, { is with fail := true }, false, w⟩

/-- The course of `build_dist_approx`: the constructor of `Dist` throws, building throws, or the
result is a generator in state `b`. -/
inductive BuildFault (B : Type)
  | ctor
  | build
  | none (b : B)

@[inherit_doc BuildFault] def BuildFault.isCtor : BuildFault B → Bool
  | .ctor => true
  | _ => false

/-- `build_dist_approx` (generator.ipp 199-224); `none` for an exception.  On an exception the local
variable is destroyed. -/
def buildDistApprox (L : Lib B) (t : DistType) (fault : BuildFault B) (w : World) :
    Option (Option (Obj B) × World) :=
  match Obj.make L t fault.isCtor w with
  | (none, w) => some (none, w)
  | (some o, w) =>
    match t with
    | .uniform => some (some o, w)
    | .foam => (o.destroy false w).map fun x => (none, x.2)
    | .bubble =>
      match fault with
      | .none b =>
        match o.live with
        | none => none
        | some e => some (some { o with engine := some { e with val := b } }, w.put (.use e.id))
      | _ => (o.destroy false w).map fun x => (none, x.2)
    | .vegas => (o.destroy false w).map fun x => (none, x.2)

/-- An object is moved and the old one destroyed, `n` times. -/
def Obj.relocate (L : Lib B) : ℕ → Obj B → World → Option (Obj B × World)
  | 0, o, w => some (o, w)
  | n + 1, o, w =>
    match o.move L w with
    | none => none
    | some (o', o, w) =>
      match o.destroy false w with
      | none => none
      | some (_, w) => Obj.relocate L n o' w

/-! ### Generator -/

/-- The dimension of the unit cube of an event type (generator.hpp 236-239). -/
def dim : Format.EventType → ℕ
  | .nrad => 6
  | .rad => 9

/-- `Generator` (generator.hpp 222-262).  `dist` is the member of the union `_dist` if it is alive.
Simplification: `_density` is left out: it has no destructor and is never changed. -/
structure Gen (B : Type) where
  ev : Format.EventType
  valid : Bool
  dist : Option (Obj B)
  deriving DecidableEq

/-- `Generator::Generator(Density)` (generator.cpp 223-240). -/
def Gen.make (L : Lib B) (ev : Format.EventType) (w : World) : Option (Gen B × World) :=
  match Obj.make L .uniform false w with
  | (none, _) => none
  | (some o, w) => some (⟨ev, true, some o⟩, w)

/-- `Generator::Generator(Generator&&)` (generator.cpp 242-260): the new generator and the old. -/
def Gen.move (L : Lib B) (g : Gen B) (w : World) : Option (Gen B × Gen B × World) :=
  match g.dist with
  | none => none
  | some o =>
    match o.move L w with
    | none => none
    | some (o', o, w) => some (⟨g.ev, true, some o'⟩, { g with dist := some o }, w)

/-- `Generator::~Generator` (generator.cpp 262-277). -/
def Gen.destroy (g : Gen B) (w : World) : Option World :=
  if g.valid then
    match g.dist with
    | none => none
    | some o => (o.destroy false w).map Prod.snd
  else some w

/-- `Generator::prime` (generator.cpp 279-288). -/
def Gen.prime (g : Gen B) (w : World) : Option (Option (Source B) × World) :=
  match g.dist with
  | none => none
  | some o => o.prime w

/-- `Generator::draw` (generator.cpp 290-311), up to the evaluation of the density. -/
def Gen.draw (g : Gen B) (w : World) : Option (Option (Source B) × World) :=
  match g.dist with
  | none => none
  | some o => o.draw w

/-- `Generator::build_dist` (generator.cpp 313-329): the generator, and whether an exception was
thrown.  `moves`: how often the result is moved before it is in its place. -/
def Gen.build (L : Lib B) (g : Gen B) (t : DistType) (fault : BuildFault B) (moves : ℕ) (w : World) :
    Option (Gen B × Bool × World) :=
  match g.dist with
  | none => none
  | some o =>
    match o.destroy false w with
    | none => none
    | some (_, w) =>
      match buildDistApprox L t fault w with
      | none => none
      | some (none, w) => some (⟨g.ev, false, none⟩, true, w)
      | some (some o, w) =>
        match o.relocate L moves w with
        | none => none
        | some (o, w) => some (⟨g.ev, true, some o⟩, false, w)

/-- `Generator::write_dist` (generator.cpp 331-340). -/
def Gen.write (L : Lib B) (g : Gen B) (os : OStream) (w : World) : Option (OStream × World) :=
  match g.dist with
  | none => none
  | some o => o.write L (dim g.ev) os w

/-- `Generator::read_dist` (generator.cpp 342-351). -/
def Gen.read (L : Lib B) (g : Gen B) (is : IStream) (fault : ReadFault B) (kept : Bool) (w : World) :
    Option (Gen B × IStream × Bool × World) :=
  match g.dist with
  | none => none
  | some o => (o.read L (dim g.ev) is fault kept w).map fun r =>
    ({ g with dist := some r.obj }, r.is, r.threw, r.world)

/-! ### Histories -/

/-- What a program does with generators, numbered in the order of their construction. -/
inductive Op (B : Type)
  | make (ev : Format.EventType)
  | move (i : ℕ)
  | build (i : ℕ) (t : DistType) (fault : BuildFault B) (moves : ℕ)
  | read (i : ℕ) (is : IStream) (fault : ReadFault B) (kept : Bool)
  | write (i : ℕ) (os : OStream)
  | draw (i : ℕ)
  | prime (i : ℕ)
  | destroy (i : ℕ)

/-- The generators, `none` after their destruction, and the ghost state. -/
structure State (B : Type) where
  gens : List (Option (Gen B))
  world : World

@[inherit_doc State] def State.get (s : State B) (i : ℕ) : Option (Gen B) := s.gens.getD i none

@[inherit_doc State] def State.set (s : State B) (i : ℕ) (g : Option (Gen B)) (w : World) : State B :=
  ⟨s.gens.set i g, w⟩

/-- One operation; `none` is undefined behaviour, among it any use of a generator that does not
exist. -/
def step (L : Lib B) (s : State B) : Op B → Option (State B)
  | .make ev => (Gen.make L ev s.world).map fun (g, w) => ⟨s.gens ++ [some g], w⟩
  | .move i => do
    let g ← s.get i
    let (g', g, w) ← g.move L s.world
    some ⟨(s.gens.set i (some g)) ++ [some g'], w⟩
  | .build i t fault moves => do
    let g ← s.get i
    let (g, _, w) ← g.build L t fault moves s.world
    some (s.set i (some g) w)
  | .read i is fault kept => do
    let g ← s.get i
    let (g, _, _, w) ← g.read L is fault kept s.world
    some (s.set i (some g) w)
  | .write i os => do
    let g ← s.get i
    let (_, w) ← g.write L os s.world
    some (s.set i (some g) w)
  | .draw i => do
    let g ← s.get i
    let (_, w) ← g.draw s.world
    some (s.set i (some g) w)
  | .prime i => do
    let g ← s.get i
    let (_, w) ← g.prime s.world
    some (s.set i (some g) w)
  | .destroy i => do
    let g ← s.get i
    let w ← g.destroy s.world
    some (s.set i none w)

/-- A whole history. -/
def run (L : Lib B) : List (Op B) → State B → Option (State B)
  | [], s => some s
  | o :: os, s => (step L s o).bind (run L os)

/-- Before anything has happened. -/
def State.init : State B := ⟨[], ⟨0, []⟩⟩

end Sidis.Dist

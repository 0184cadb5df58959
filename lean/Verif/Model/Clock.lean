import Verif.Model.Basic
/-!
# Clock generator and component base class

`src/environment/global/clock_generator.{hpp,cpp}`, `src/components/base/component.{hpp,cpp}`,
`src/components/base/interface_tickable.hpp`.

The behaviour of the virtual routines is arbitrary: a "world" state `σ` is transformed by each executed routine, and the
power state and the fast-update flag of each component are read from the world at the moment the code reads them. The only
restriction is that a routine does not register or remove components while the list is being iterated (in C++ that
invalidates the iterator).
-/
namespace S2E
namespace Clock

/-- What happens at run time, in order. `id` identifies a component object. -/
inductive Event where
  | tickCall (id count : Nat)      -- `Tick(count)` is called
  | fastCall (id count : Nat)      -- `FastTick(count)` is called
  | main (id count : Nat)          -- `MainRoutine(count)` is executed
  | fast (id : Nat)                -- `FastUpdate()` is executed
  | powerOff (id : Nat)            -- `PowerOffRoutine()` is executed
  deriving Repr, DecidableEq

/-- Static data of a component: `prescaler_`, `fast_prescaler_`, component.hpp:66-67. -/
structure Comp where
  prescaler : Nat
  fastPrescaler : Nat
  deriving Repr, DecidableEq

/-- Constructors, component.cpp:10-24 (the registration is a separate operation here). -/
def Comp.new (prescaler fastPrescaler : Nat) : Comp :=
  { prescaler := if prescaler > 0 then prescaler else 1, fastPrescaler := if fastPrescaler > 0 then fastPrescaler else 1 }

/-- Everything the code does not determine: the components' data, their routines' effects, their power and fast flags. -/
structure World (σ : Type) where
  comp : Nat → Comp
  isOn : σ → Nat → Bool            -- `power_port_->GetIsOn()`
  needsFast : σ → Nat → Bool       -- `GetNeedsFastUpdate()`
  exec : Event → σ → σ             -- effect of a routine on the world

variable {σ : Type} (w : World σ)

/-- A trace entry: the event and the world state when it happened. -/
abbrev Entry (σ : Type) := Event × σ

/-- Execute one routine: record it and transform the world. -/
def doEvent (e : Event) (s : σ) : σ × List (Entry σ) := (w.exec e s, [(e, s)])

/-- `Component::Tick(count)`, component.cpp:37-44. -/
def tick (id count : Nat) (s : σ) : σ × List (Entry σ) :=
  if count % (w.comp id).prescaler > 0 then (s, [])
  else if w.isOn s id then doEvent w (.main id count) s
  else doEvent w (.powerOff id) s

/-- `Component::FastTick(fast_count)`, component.cpp:46-53. -/
def fastTick (id count : Nat) (s : σ) : σ × List (Entry σ) :=
  if count % (w.comp id).fastPrescaler > 0 then (s, [])
  else if w.isOn s id then doEvent w (.fast id) s
  else doEvent w (.powerOff id) s

/-- Body of the loop of `TickToComponents`, clock_generator.cpp:28-33. -/
def visit (id count : Nat) (s : σ) : σ × List (Entry σ) :=
  let (s1, t1) := tick w id count s
  if w.needsFast s1 id then
    let (s2, t2) := fastTick w id count s1
    (s2, (.tickCall id count, s) :: t1 ++ (.fastCall id count, s1) :: t2)
  else (s1, (.tickCall id count, s) :: t1)

/-- The loop of `TickToComponents`. -/
def visitAll : List Nat → Nat → σ → σ × List (Entry σ)
  | [], _, s => (s, [])
  | id :: ids, count, s =>
    let (s1, t1) := visit w id count s
    let (s2, t2) := visitAll ids count s1
    (s2, t1 ++ t2)

/-- `class ClockGenerator`, clock_generator.hpp:20-60: `components_` and the 32-bit `timer_count_`. -/
structure ClockGen where
  comps : List Nat
  timer : Nat
  deriving Repr, DecidableEq

/-- `RegisterComponent`, clock_generator.cpp:12. -/
def ClockGen.register (c : ClockGen) (id : Nat) : ClockGen := { c with comps := c.comps ++ [id] }

/-- The loop of `RemoveComponent`, clock_generator.cpp:15-22. -/
def removeLoop (id : Nat) : List Nat → List Nat
  | [] => []
  | x :: xs => if x = id then xs else x :: removeLoop id xs

/-- `RemoveComponent`, clock_generator.cpp:14-23. -/
def ClockGen.remove (c : ClockGen) (id : Nat) : ClockGen := { c with comps := removeLoop id c.comps }

/-- `TickToComponents`, clock_generator.cpp:25-36; `timer_count_++` wraps at 2^32. -/
def tickToComponents (c : ClockGen) (s : σ) : ClockGen × σ × List (Entry σ) :=
  let (s', t) := visitAll w c.comps c.timer s
  ({ c with timer := (c.timer + 1) % 2 ^ 32 }, s', t)

/-- `UpdateComponents`, clock_generator.cpp:38-42; `flag` is `GetCompoUpdateFlag()`. -/
def updateComponents (c : ClockGen) (flag : Bool) (s : σ) : ClockGen × σ × List (Entry σ) :=
  if flag then tickToComponents w c s else (c, s, [])

/-- `n` successive calls of `TickToComponents`. -/
def run : Nat → ClockGen → σ → ClockGen × σ × List (Entry σ)
  | 0, c, s => (c, s, [])
  | n + 1, c, s =>
    let (c1, s1, t1) := tickToComponents w c s
    let (c2, s2, t2) := run n c1 s1
    (c2, s2, t1 ++ t2)

end Clock
end S2E

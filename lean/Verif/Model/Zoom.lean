/-!
# Model of `Result` (web/src/components/Result.tsx)

The result is shown in the largest font in which it fits.  React is modelled as in `Model/Hook`: setting the state `mid` takes effect
with the next rendering, layout effects run with the rendering.  The browser is modelled by the sizes in which a text does not exceed
the maximum height of its box.
-/

namespace Verif.Zoom

/-- web/src/components/Result.tsx:14-17: the refs `lo` and `hi`, the state `mid` as it is rendered and as it was set last, and which
sizes fit; there is no layout if there is no text (lines 28, 65). -/
structure Zoom where
  lo : Int
  hi : Int
  mid : Int
  next : Int
  layout : Option (Int → Bool)

/-- Result.tsx:14-17: the first rendering with `n` sizes, before its effects run. -/
def init (n : Nat) : Zoom := ⟨0, (n : Int) - 1, (n : Int) - 1, (n : Int) - 1, none⟩

/-- Result.tsx:20-23 `reset`. -/
def Zoom.reset (n : Nat) (z : Zoom) : Zoom := { z with lo := 0, hi := (n : Int) - 1 }

/-- Result.tsx:27-51 `update`; lodash's `floor` and `ceil` of a half. -/
def Zoom.update (z : Zoom) : Zoom :=
  match z.layout with
  | none => z
  | some fits =>
    if fits z.mid = false then { z with hi := z.mid, next := (z.mid - z.lo) / 2 + z.lo }
    else if z.hi - z.lo ≤ 1 then z
    else if z.mid ≠ z.hi then { z with lo := z.mid, next := -(-(z.hi - z.mid) / 2) + z.mid }
    else z

/-- Rendering puts the state `mid` into the page; the second layout effect follows (Result.tsx:54-55). -/
def Zoom.render (z : Zoom) : Zoom := { z with mid := z.next }.update

/-- What may happen: another text, or none, is rendered (the first layout effect runs before the second one, lines 53-55); the property
`loading` is rendered; the window is resized (lines 57-61); the state `mid` is rendered. -/
inductive Event
  | text (layout : Option (Int → Bool))
  | loading
  | resize (layout : Option (Int → Bool))
  | render

/-- What an event does; nothing if it cannot happen. -/
def Zoom.step (n : Nat) (z : Zoom) : Event → Option Zoom
  | .text layout => some (({ z with layout := layout }.reset n).render)
  | .loading => some z.render
  | .resize layout => some (({ z with layout := layout }.reset n).update)
  | .render => if z.next = z.mid then none else some z.render

/-- A sequence of events. -/
def Zoom.steps (n : Nat) (z : Zoom) : List Event → Option Zoom
  | [] => some z
  | e :: es => (z.step n e).bind fun z => z.steps n es

/-- Result.tsx:14: the number of sizes. -/
def sizes : Nat := 5

end Verif.Zoom

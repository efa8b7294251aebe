import Verif.Wsgi
/-
What a client of the HTTP server asks for and gets.
-/
namespace Verif.Spec

/-- `r` is a plain GET of the URL `u`: the host has no slash, and what follows it is split at the slashes. -/
def Asks (r : Request) (u : Text) : Prop :=
  '/' ∉ r.host ∧ r.range = none ∧
    ∃ path, u = (if r.https then "https://".toList else "http://".toList) ++ r.host ++ '/' :: path ∧
      r.parts = [] :: splitChar '/' path

/-- The reply is a success with the complete body `b` of the type `mime`. -/
def Delivers (x : Py (Reply × Body)) (mime : Text) (b : Bytes) : Prop :=
  ∃ rep, x = .ok (rep, .whole b) ∧ rep.status = 200 ∧ getHeader rep.headers "Content-Type".toList = some mime ∧
    getHeader rep.headers "Content-Length".toList = some (intText b.length)

/-- The reply says that there is no such thing (at this time). -/
def Refuses (x : Py (Reply × Body)) : Prop := ∃ rep b, x = .ok (rep, .whole b) ∧ rep.status = 404

end Verif.Spec

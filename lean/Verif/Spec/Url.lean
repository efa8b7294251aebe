import Verif.Wsgi
/-
How a client takes an absolute URL apart to make the next request.
-/
namespace Verif

/-- Scheme, host, path (split at the slashes) and query of an absolute URL. -/
def readUrl (t : Text) : Option Request :=
  let go (https : Bool) (rest : Text) : Option Request :=
    let loc := rest.takeWhile (fun c => c ≠ '?')
    let query := (rest.dropWhile (fun c => c ≠ '?')).drop 1
    match splitChar '/' loc with
    | host :: ps => some { host := host, parts := [] :: ps, query := query, https := https }
    | [] => none
  if "https://".toList.isPrefixOf t then go true (t.drop 8)
  else if "http://".toList.isPrefixOf t then go false (t.drop 7)
  else none

/-- The media types of what the server sends: manifests, segments, initialisation segments. -/
def MediaTypeOf (ext type : Text) : Prop :=
  (ext, type) ∈ [(".mpd".toList, "application/dash+xml".toList), (".m4s".toList, "video/iso.segment".toList),
    (".mp4".toList, "video/mp4".toList)]

end Verif

import Verif.Model.CommandLine
/-!
# URLs and redirects between the client program and the server program

The client program makes its URLs by appending to the value of `-target` (cmd/client/main.go:45, 91). The server's `ServeMux`
(cmd/server/server.go:42-48) answers paths that are not clean with a redirect, which Go's HTTP client follows.
-/
namespace Migp
open Http

/-- `net/url.unescape` for paths and fragments; `none` for a bad escape. -/
def unescape : GoString → Option GoString
  | [] => some []
  | c :: rest =>
    if c = 37 then
      match rest with
      | a :: b :: rest =>
        match fromHexChar a, fromHexChar b, unescape rest with
        | some x, some y, some r => some (UInt8.ofNat (x * 16 + y) :: r)
        | _, _, _ => none
      | _ => none
    else (unescape rest).map (c :: ·)

/-- The escaped path of a URL, given what follows its host: up to `?` (the query) or `#` (the fragment). -/
def urlPath (rest : GoString) : GoString := rest.takeWhile fun c => decide (c ≠ 63 ∧ c ≠ 35)

/-- The escaped fragment of a URL: what follows the first `#`. -/
def urlFragment (rest : GoString) : GoString := (rest.dropWhile fun c => decide (c ≠ 35)).tail

/-- `http.Get` or `http.Post` with `http.DefaultClient`, for a path of the server: a redirect of `ServeMux` has status 301, and the
client then sends a GET request without a body to the new path. `left` is the number of redirects still followed. (The
handlers do not look at the method; see `serve`. Status 301 is that of the Go versions up to go.mod's 1.16 and long after;
cmd/client/main.go:45, pkg/migp/client.go:75.) -/
def fetch (s : Server) (kv : KV) (stale : Nat → Nat → UInt8) : (left : Nat) → (path : GoString) → (body : Bytes) → Transport
  | left, path, body =>
    match route path with
    | .redirect target =>
      match left with
      | 0 => .failed
      | left + 1 => fetch s kv stale left target []
    | _ => deliver s kv stale path body

/-- A network with one server, listening at `addr`: the outcome of a request for a URL. URLs with control bytes or bad escapes in
path or fragment are refused by `net/url`; other hosts cannot be reached. An empty path is sent as `/`. Nine redirects are
followed. (cmd/client/main.go:45, 91, pkg/migp/client.go:75 and cmd/server/server.go:42-48. Simplified: a space in the query of
the URL, which the server refuses with status 400, is let through.) -/
def web (addr : GoString) (s : Server) (kv : KV) (stale : Nat → Nat → UInt8) (url : GoString) (body : Bytes) : Transport :=
  match (ascii "http://" ++ addr).isPrefixOf? url with
  | none => .failed
  | some rest =>
    if rest.any (fun c => decide (c < 32 ∨ c = 127)) then .failed
    else if rest = [] ∨ rest.head? = some 47 ∨ rest.head? = some 63 ∨ rest.head? = some 35 then
      match unescape (urlPath rest), unescape (urlFragment rest) with
      | some path, some _ => fetch s kv stale 9 (if path = [] then [47] else path) body
      | _, _ => .failed
    else .failed

end Migp

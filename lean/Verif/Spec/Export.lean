/-! # Specification of the flat binary export to an unreliable file

The file's behaviour is a list of reactions to write requests: `some n` accepts at most `n` octets (`some 0` counts as a
failure), `none` fails; after the end of the list everything is accepted. -/

namespace Grib.Spec

/-- Handing `n` octets over, in as many requests as it takes, until all are accepted or a request fails:
how many were accepted, whether all were, and the reactions still to come. -/
def pour : List (Option Nat) → Nat → Nat × Bool × List (Option Nat)
  | sched, 0 => (0, true, sched)
  | [], n + 1 => (n + 1, true, [])
  | none :: sched, _ + 1 => (0, false, sched)
  | some 0 :: sched, _ + 1 => (0, false, sched)
  | some (k + 1) :: sched, n + 1 =>
    let r := pour sched (n - k)
    (min (k + 1) (n + 1) + r.1, r.2.1, r.2.2)

/-- The export of `b` blocks of 8192 octets and a last one of `last` octets: whether success is reported, and how many
octets reach the file.  A failure in any block but the last is reported, after one more attempt to hand over the rest of
that block; a failure in the last one is not noticed. -/
def exportOctets : (b last : Nat) → List (Option Nat) → Bool × Nat
  | 0, last, sched => (true, (pour sched last).1)
  | b + 1, last, sched =>
    match pour sched 8192 with
    | (_, true, rest) =>
      let r := exportOctets b last rest
      (r.1, 8192 + r.2)
    | (k, false, rest) => (false, k + (pour rest (8192 - k)).1)

end Grib.Spec

import Verif.Model.Protocol
/-!
# Specification: what a reader delivers

`Delivers evs s`: however it is cut into chunks and interrupted, the reader delivers exactly the bytes `s`, then end of file.
`Breaks k evs s`: it delivers exactly `s` and then fails with the hard error `k`.
`Begins evs s rest`: it delivers `s`, and whatever is in `rest` (bytes, end of file, an error) has not been asked for when `s` is complete.
-/
namespace CT.Spec
open CT

inductive Delivers : List REvent → Bytes → Prop where
  | nil : Delivers [] []
  | eof (r) : Delivers (.data [] :: r) []
  | data (bs r s) (h : bs ≠ []) (hr : Delivers r s) : Delivers (.data bs :: r) (bs ++ s)
  | interrupted (r s) (hr : Delivers r s) : Delivers (.error .interrupted :: r) s

inductive Breaks (k : ErrorKind) : List REvent → Bytes → Prop where
  | error (r) (h : k ≠ .interrupted) : Breaks k (.error k :: r) []
  | data (bs r s) (h : bs ≠ []) (hr : Breaks k r s) : Breaks k (.data bs :: r) (bs ++ s)
  | interrupted (r s) (hr : Breaks k r s) : Breaks k (.error .interrupted :: r) s

inductive Begins : List REvent → Bytes → List REvent → Prop where
  | done (r) : Begins r [] r
  /-- the chunk goes on after `s` -/
  | chunk (bs x r) (h : bs ≠ []) (hx : x ≠ []) : Begins (.data (bs ++ x) :: r) bs (.data x :: r)
  | data (bs r s rest) (h : bs ≠ []) (hr : Begins r s rest) : Begins (.data bs :: r) (bs ++ s) rest
  | interrupted (r s rest) (h : s ≠ []) (hr : Begins r s rest) : Begins (.error .interrupted :: r) s rest

end CT.Spec

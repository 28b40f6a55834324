import Verif.Spec.Printer
/-
What a user is told about a job that cannot be printed as it is, on the reference printer.
-/
namespace Thermal.Spec

/-- An item that is a symbol which does not exist: a barcode that cannot be encoded, a QR code although none is stored. -/
def Press.missing (ext : Ext) (p : Press) (it : Item) : Bool :=
  match it with
  | .barcodeA m data | .barcodeB m data => (Spec.barcode ext m data).isNone
  | .code2d 49 81 _ => p.qr.symbol.isNone
  | _ => false

/-- The number of such items in a job. -/
def Press.misses (ext : Ext) : Press → List Item → Nat
  | _, [] => 0
  | p, it :: its => (if p.missing ext it then 1 else 0) + (p.step ext it).misses ext its

end Thermal.Spec

/-! A list of words, written as one string, as the list of the numbers with the words' UTF-8 bytes as big-endian
digits. Numbers keep the data small for the kernel. -/

namespace Bips

/-- `words! "ab c"` is `[0x6162, 0x63]`. -/
macro "words!" s:str : term => do
  let ws := (s.getString.splitToList (fun c => c == ' ' || c == '\n')).filter (· ≠ "")
  let ns := ws.map fun w => w.toUTF8.foldl (fun n b => n * 256 + b.toNat) 0
  let ts := ns.toArray.map fun n => Lean.Syntax.mkNumLit (toString n)
  `([$ts,*])

end Bips

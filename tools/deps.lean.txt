import Verif
open Lean
def main' : CoreM Unit := do
  let env ← getEnv
  let mut out : Array String := #[]
  for (n, ci) in env.constants.map₁.toList do
    if (`Metro2).isPrefixOf n then
      let some idx := env.getModuleIdxFor? n | continue
      let m := env.header.moduleNames[idx.toNat]!
      let mut us := ci.type.getUsedConstants
      if let some v := ci.value? (allowOpaque := true) then us := us ++ v.getUsedConstants
      let vs := us.filter (fun c => (`Metro2).isPrefixOf c)
      let kind := match ci with | .thmInfo _ => "thm" | _ => "def"
      out := out.push (s!"{n}\t{m}\t{kind}\t" ++ " ".intercalate (vs.toList.eraseDups.map toString))
  IO.FS.writeFile "/tmp/deps.tsv" ("\n".intercalate out.toList)
#eval main'

import Verif.Model.State
/-!
# Comparing sets of files
-/

namespace Necro.Spec

/-- Every file of `env` is in `env'`, with the same contents. -/
structure FewerFiles (env env' : Env) : Prop where
  text : ∀ name c, env.text name = some c → env'.text name = some c
  binary : ∀ name c, env.binary name = some c → env'.binary name = some c
  csv : ∀ name c, env.csv name = some c → env'.csv name = some c
  json : ∀ name key c, env.json name key = .ok c → env'.json name key = .ok c
  image : ∀ name c, env.image name = some c → env'.image name = some c

end Necro.Spec

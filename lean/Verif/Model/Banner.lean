import Verif.Model.Prelude

/-! The sign for the time of the day in `welcomebanner` of the default prelude. -/

namespace Dune.Prelude

/-- `time-emoji` (src/.default-dune-prelude:584-587). -/
def timeSignText : Str :=
  c!"let time-emoji = if now@hour <= 6 \"🌃\"\n" ++
  c!"            else if now@hour <= 10 \"🌅\"\n" ++
  c!"            else if now@hour <= 18 \"🌤️ \"\n" ++
  c!"            else \"🌃\""

end Dune.Prelude

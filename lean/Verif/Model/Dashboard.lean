import Verif.Model.Prelude

/-! What the dashboard of the default prelude shows. -/

namespace Dune.Prelude

/-- The value of `default-widgets` in `dashboard` (src/.default-dune-prelude:719-721). -/
def widgetsText : Str :=
  c!"(widget@joinx\n" ++
  c!"            (make-calendar now@month now@day now@year)\n" ++
  c!"            (widget@create \"Cat\" (rand@choose CATS) 20 10))"

/-- What `dashboard` shows with the weather (src/.default-dune-prelude:725-729). -/
def dashboardText : Str :=
  c!"(widget@joiny\n" ++
  c!"            default-widgets\n" ++
  c!"            (widget@joinx\n" ++
  c!"                (widget@create \"Flower\" (rand@choose PLANTS) 14 11)\n" ++
  c!"                weather-widget))"

/-- The widget of the weather in `weather` (src/.default-dune-prelude:327-331). -/
def weatherWidgetText : Str :=
  c!"widget@joiny\n" ++
  c!"                    (widget@create \"Weather\" header-text 36 4)\n" ++
  c!"                    (widget@joinx\n" ++
  c!"                        (widget@create \"Stats\" stats-text 21 7)\n" ++
  c!"                        (widget@create \"Icon\" weather-ascii 15 7))"

/-- The widget if there are no data (src/.default-dune-prelude:334-338; the same at 342-346,
but for the spaces). -/
def noWeatherText : Str :=
  c!"widget@joiny\n" ++
  c!"                    (widget@create \"Weather\" \"?\" 36 4)\n" ++
  c!"                    (widget@joinx\n" ++
  c!"                        (widget@create \"Stats\" \"?\" 21 7)\n" ++
  c!"                        (widget@create \"Icon\" WEATHER-ASCII@Unknown 15 7))"

end Dune.Prelude

import Verif.Model.Prelude

/-! The pictures of the weather of the default prelude. -/

namespace Dune.Prelude

/-- `WEATHER-ASCII` (src/.default-dune-prelude:83-174). -/
def asciiText : Str :=
  c!"let WEATHER-ASCII = {\n" ++
  c!"    Unknown = \"    .-.      \n" ++
  c!"     __)     \n" ++
  c!"    (        \n" ++
  c!"     `-’     \n" ++
  c!"      •\",\n" ++
  c!"    Sunny = \"    \\\\   /   \n" ++
  c!"     .-.     \n" ++
  c!"  ― (   ) ―  \n" ++
  c!"     `-’     \n" ++
  c!"    /   \\\\    \",\n" ++
  c!"    PartlyCloudy =\"   \\\\  /\n" ++
  c!" _ /\\\"\\\".-.\n" ++
  c!"   \\\\_(   ).\n" ++
  c!"   /(___(__)\",\n" ++
  c!"    Cloudy = \"\n" ++
  c!"     .--.\n" ++
  c!"  .-(    ).\n" ++
  c!" (___.__)__)\",\n" ++
  c!"    VeryCloudy = \"\n" ++
  c!"     .--.\n" ++
  c!"  .-(    ).\n" ++
  c!" (___.__)__)\",\n" ++
  c!"    LightShowers=\" _`/\\\"\\\".-.\n" ++
  c!"  ,\\\\_(   ).\n" ++
  c!"   /(___(__)\n" ++
  c!"     ‘ ‘ ‘ ‘\n" ++
  c!"    ‘ ‘ ‘ ‘\",\n" ++
  c!"    HeavyShowers = \" _`/\\\"\\\".-.\n" ++
  c!"  ,\\\\_(   ).\n" ++
  c!"   /(___(__)\n" ++
  c!"   ‚‘‚‘‚‘‚‘\n" ++
  c!"   ‚’‚’‚’‚’\",\n" ++
  c!"   LightSnowShowers = \" _`/\\\"\\\".-.\n" ++
  c!"  ,\\\\_(   ).\n" ++
  c!"   /(___(__)\n" ++
  c!"     *  *  *\n" ++
  c!"    *  *  *\",\n" ++
  c!"    HeavySnowShowers = \" _`/\\\"\\\".-.\n" ++
  c!"  ,\\\\_(   ).\n" ++
  c!"   /(___(__)\n" ++
  c!"    * * * *\n" ++
  c!"   * * * *\",\n" ++
  c!"   LightSleetShowers = \" _`/\\\"\\\".-.\n" ++
  c!"  ,\\\\_(   ).\n" ++
  c!"   /(___(__)\n" ++
  c!"     ‘ * ‘ *\n" ++
  c!"    * ‘ * ‘\",\n" ++
  c!"    ThunderyShowers = \" _`/\\\"\\\".-.\n" ++
  c!"  ,\\\\_(   ).\n" ++
  c!"   /(___(__)\n" ++
  c!"    ⚡‘ ‘⚡‘\n" ++
  c!"    ‘ ‘ ‘ ‘\",\n" ++
  c!"    ThunderyHeavyRain = \"     .-.\n" ++
  c!"    (   ).\n" ++
  c!"   (___(__)\n" ++
  c!"  ‚‘⚡‘‚⚡‚‘\n" ++
  c!"  ‚’‚’⚡’‚’\",\n" ++
  c!"    ThunderySnowShowers = \" _`/\\\"\\\".-.\n" ++
  c!"  ,\\\\_(   ).\n" ++
  c!"   /(___(__)\n" ++
  c!"     *⚡*⚡*\n" ++
  c!"    *  *  *\",\n" ++
  c!"    LightRain = \"     .-.\n" ++
  c!"    (   ).\n" ++
  c!"   (___(__)\n" ++
  c!"    ‘ ‘ ‘ ‘\n" ++
  c!"   ‘ ‘ ‘ ‘\",\n" ++
  c!"    HeavyRain = \"     .-.\n" ++
  c!"    (   ).\n" ++
  c!"   (___(__)\n" ++
  c!"  ‚‘‚‘‚‘‚‘\n" ++
  c!"  ‚’‚’‚’‚’\",\n" ++
  c!"    LightSnow = \"     .-.\n" ++
  c!"    (   ).\n" ++
  c!"   (___(__)\n" ++
  c!"    *  *  *\n" ++
  c!"   *  *  *\",\n" ++
  c!"    HeavySnow = \"     .-.\n" ++
  c!"    (   ).\n" ++
  c!"   (___(__)\n" ++
  c!"   * * * *\n" ++
  c!"  * * * *\",\n" ++
  c!"    LightSleet = \"     .-.\n" ++
  c!"    (   ).\n" ++
  c!"   (___(__)\n" ++
  c!"    ‘ * ‘ *\n" ++
  c!"   * ‘ * ‘\",\n" ++
  c!"    Fog = \" _ - _ - _ -\n" ++
  c!"  _ - _ - _\n" ++
  c!" _ - _ - _ -\"\n" ++
  c!"};"

/-- `get-weather-ascii` (src/.default-dune-prelude:215-280). -/
def getAsciiText : Str :=
  c!"let get-weather-ascii = desc -> {\n" ++
  c!"    ## DRIZZLE ASCII\n" ++
  c!"    if desc == \"light intensity drizzle\" || desc == \"drizzle\"\n" ++
  c!"        || desc == \"heavy intensity drizzle\" || desc == \"light intensity drizzle rain\"\n" ++
  c!"        || desc == \"drizzle rain\" || desc == \"heavy intensity drizzle rain\"\n" ++
  c!"        || desc == \"shower rain and drizzle\" || desc == \"heavy shower rain and drizzle\"\n" ++
  c!"        || desc == \"shower drizzle\"\n" ++
  c!"        WEATHER-ASCII@LightShowers\n" ++
  c!"\n" ++
  c!"    ## RAIN ASCII\n" ++
  c!"    else if desc == \"shower rain\" || desc == \"ragged shower rain\" || desc == \"light intensity shower rain\"\n" ++
  c!"        WEATHER-ASCII@LightShowers\n" ++
  c!"    else if desc == \"light rain\"\n" ++
  c!"        WEATHER-ASCII@LightRain\n" ++
  c!"    else if desc == \"moderate rain\" || desc == \"heavy intensity shower rain\"\n" ++
  c!"        WEATHER-ASCII@HeavyShowers\n" ++
  c!"    else if desc == \"heavy intensity rain\" || desc == \"very heavy rain\" || desc == \"extreme rain\"\n" ++
  c!"        WEATHER-ASCII@HeavyRain\n" ++
  c!"    else if desc == \"freezing rain\"\n" ++
  c!"        WEATHER-ASCII@LightSleet\n" ++
  c!"\n" ++
  c!"    ## SNOW ASCII\n" ++
  c!"    else if desc == \"light snow\" || desc == \"Snow\"\n" ++
  c!"        WEATHER-ASCII@LightSnow\n" ++
  c!"    else if desc == \"Heavy snow\"\n" ++
  c!"        WEATHER-ASCII@HeavySnow\n" ++
  c!"    else if desc == \"Sleet\"\n" ++
  c!"        WEATHER-ASCII@LightSleet\n" ++
  c!"    else if desc == \"Light shower sleet\"\n" ++
  c!"        WEATHER-ASCII@LightSleetShowers\n" ++
  c!"    else if desc == \"Shower sleet\" || desc == \"Rain and snow\"\n" ++
  c!"        WEATHER-ASCII@HeavySnowShowers\n" ++
  c!"    else if desc == \"Light shower snow\" || desc == \"Light rain and snow\"\n" ++
  c!"        WEATHER-ASCII@LightSnowShowers\n" ++
  c!"    else if desc == \"Shower snow\" || desc == \"Heavy shower snow\"\n" ++
  c!"        WEATHER-ASCII@HeavySnowShowers\n" ++
  c!"\n" ++
  c!"    ## THUNDER ASCII\n" ++
  c!"    else if desc == \"thunderstorm with light rain\" || desc == \"thunderstorm with rain\"\n" ++
  c!"            || desc == \"ragged thunderstorm\" || desc == \"thunderstorm with light drizzle\"\n" ++
  c!"            || desc == \"light thunderstorm\" || desc == \"thunderstorm\"\n" ++
  c!"            || desc == \"thunderstorm with drizzle\" || desc == \"thunderstorm with heavy drizzle\"\n" ++
  c!"        WEATHER-ASCII@ThunderyShowers\n" ++
  c!"    else if desc == \"thunderstorm with heavy rain\" || desc == \"heavy thunderstorm\"\n" ++
  c!"        WEATHER-ASCII@ThunderyHeavyRain\n" ++
  c!"\n" ++
  c!"    ## CLEAR ASCII\n" ++
  c!"    else if desc == \"clear sky\"\n" ++
  c!"        WEATHER-ASCII@Sunny\n" ++
  c!"    else if desc == \"few clouds\"\n" ++
  c!"        WEATHER-ASCII@PartlyCloudy\n" ++
  c!"    else if desc == \"scattered clouds\"\n" ++
  c!"        WEATHER-ASCII@Cloudy\n" ++
  c!"    else if desc == \"broken clouds\"\n" ++
  c!"        WEATHER-ASCII@Cloudy\n" ++
  c!"    else if desc == \"overcast clouds\"\n" ++
  c!"        WEATHER-ASCII@VeryCloudy\n" ++
  c!"\n" ++
  c!"    else if desc == \"mist\" || desc == \"Smoke\"\n" ++
  c!"        || desc == \"Haze\" || desc == \"sand/ dust whirls\" || desc == \"fog\"\n" ++
  c!"        || desc == \"sand\" || desc == \"dust\" || desc == \"volcanic ash\"\n" ++
  c!"        || desc == \"squalls\" || desc == \"tornado\"\n" ++
  c!"        WEATHER-ASCII@Fog\n" ++
  c!"\n" ++
  c!"    else WEATHER-ASCII@Unknown\n" ++
  c!"};"

end Dune.Prelude

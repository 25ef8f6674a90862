import Verif.Py.Json
/-!
# The built-in effects of light strips (iot/effects.py, smart/effects.py)

Copied from the source, field by field and in its order.
-/

namespace Kasa.Effects

namespace Legacy

/-- `EFFECT_AURORA` (iot/effects.py:7-22). -/
def aurora : List (String × Json) :=
  [("custom", .num 0), ("id", .str "xqUxDhbAhNLqulcuRMyPBmVGyTOyEMEu"), ("brightness", .num 100), ("name",
   .str "Aurora"), ("segments", .arr [.num 0]), ("expansion_strategy", .num 1), ("enable", .num 1), ("type",
   .str "sequence"), ("duration", .num 0), ("transition", .num 1500), ("direction", .num 4), ("spread", .num 7),
   ("repeat_times", .num 0), ("sequence", .arr [.arr [.num 120, .num 100, .num 100], .arr [.num 240, .num 100,
   .num 100], .arr [.num 260, .num 100, .num 100], .arr [.num 280, .num 100, .num 100]])]

/-- `EFFECT_BUBBLING_CAULDRON` (iot/effects.py:23-41). -/
def bubblingCauldron : List (String × Json) :=
  [("custom", .num 0), ("id", .str "tIwTRQBqJpeNKbrtBMFCgkdPTbAQGfRP"), ("brightness", .num 100), ("name",
   .str "Bubbling Cauldron"), ("segments", .arr [.num 0]), ("expansion_strategy", .num 1), ("enable", .num 1),
   ("type", .str "random"), ("hue_range", .arr [.num 100, .num 270]), ("saturation_range", .arr [.num 80,
   .num 100]), ("brightness_range", .arr [.num 50, .num 100]), ("duration", .num 0), ("transition", .num 200),
   ("init_states", .arr [.arr [.num 270, .num 100, .num 100]]), ("fadeoff", .num 1000), ("random_seed", .num 24),
   ("backgrounds", .arr [.arr [.num 270, .num 40, .num 50]])]

/-- `EFFECT_CANDY_CANE` (iot/effects.py:42-74). -/
def candyCane : List (String × Json) :=
  [("custom", .num 0), ("id", .str "HCOttllMkNffeHjEOLEgrFJjbzQHoxEJ"), ("brightness", .num 100), ("name",
   .str "Candy Cane"), ("segments", .arr [.num 0, .num 1, .num 2, .num 3, .num 4, .num 5, .num 6, .num 7, .num 8,
   .num 9, .num 10, .num 11, .num 12, .num 13, .num 14, .num 15]), ("expansion_strategy", .num 1), ("enable",
   .num 1), ("type", .str "sequence"), ("duration", .num 700), ("transition", .num 500), ("direction", .num 1),
   ("spread", .num 1), ("repeat_times", .num 0), ("sequence", .arr [.arr [.num 0, .num 0, .num 100], .arr [.num 0,
   .num 0, .num 100], .arr [.num 360, .num 81, .num 100], .arr [.num 0, .num 0, .num 100], .arr [.num 0, .num 0,
   .num 100], .arr [.num 360, .num 81, .num 100], .arr [.num 360, .num 81, .num 100], .arr [.num 0, .num 0,
   .num 100], .arr [.num 0, .num 0, .num 100], .arr [.num 360, .num 81, .num 100], .arr [.num 360, .num 81,
   .num 100], .arr [.num 360, .num 81, .num 100], .arr [.num 360, .num 81, .num 100], .arr [.num 0, .num 0,
   .num 100], .arr [.num 0, .num 0, .num 100], .arr [.num 360, .num 81, .num 100]])]

/-- `EFFECT_CHRISTMAS` (iot/effects.py:75-93). -/
def christmas : List (String × Json) :=
  [("custom", .num 0), ("id", .str "bwTatyinOUajKrDwzMmqxxJdnInQUgvM"), ("brightness", .num 100), ("name",
   .str "Christmas"), ("segments", .arr [.num 0]), ("expansion_strategy", .num 1), ("enable", .num 1), ("type",
   .str "random"), ("hue_range", .arr [.num 136, .num 146]), ("saturation_range", .arr [.num 90, .num 100]),
   ("brightness_range", .arr [.num 50, .num 100]), ("duration", .num 5000), ("transition", .num 0), ("init_states",
   .arr [.arr [.num 136, .num 0, .num 100]]), ("fadeoff", .num 2000), ("random_seed", .num 100), ("backgrounds",
   .arr [.arr [.num 136, .num 98, .num 75], .arr [.num 136, .num 0, .num 0], .arr [.num 350, .num 0, .num 100],
   .arr [.num 350, .num 97, .num 94]])]

/-- `EFFECT_FLICKER` (iot/effects.py:94-110). -/
def flicker : List (String × Json) :=
  [("custom", .num 0), ("id", .str "bCTItKETDFfrKANolgldxfgOakaarARs"), ("brightness", .num 100), ("name",
   .str "Flicker"), ("segments", .arr [.num 1]), ("expansion_strategy", .num 1), ("enable", .num 1), ("type",
   .str "random"), ("hue_range", .arr [.num 30, .num 40]), ("saturation_range", .arr [.num 100, .num 100]),
   ("brightness_range", .arr [.num 50, .num 100]), ("duration", .num 0), ("transition", .num 0),
   ("transition_range", .arr [.num 375, .num 500]), ("init_states", .arr [.arr [.num 30, .num 81, .num 80]])]

/-- `EFFECT_HANUKKAH` (iot/effects.py:111-127). -/
def hanukkah : List (String × Json) :=
  [("custom", .num 0), ("id", .str "CdLeIgiKcQrLKMINRPTMbylATulQewLD"), ("brightness", .num 100), ("name",
   .str "Hanukkah"), ("segments", .arr [.num 1]), ("expansion_strategy", .num 1), ("enable", .num 1), ("type",
   .str "random"), ("hue_range", .arr [.num 200, .num 210]), ("saturation_range", .arr [.num 0, .num 100]),
   ("brightness_range", .arr [.num 50, .num 100]), ("duration", .num 1500), ("transition", .num 0),
   ("transition_range", .arr [.num 400, .num 500]), ("init_states", .arr [.arr [.num 35, .num 81, .num 80]])]

/-- `EFFECT_HAUNTED_MANSION` (iot/effects.py:128-147). -/
def hauntedMansion : List (String × Json) :=
  [("custom", .num 0), ("id", .str "oJnFHsVQzFUTeIOBAhMRfVeujmSauhjJ"), ("brightness", .num 80), ("name",
   .str "Haunted Mansion"), ("segments", .arr [.num 80]), ("expansion_strategy", .num 2), ("enable", .num 1),
   ("type", .str "random"), ("hue_range", .arr [.num 45, .num 45]), ("saturation_range", .arr [.num 10, .num 10]),
   ("brightness_range", .arr [.num 0, .num 80]), ("duration", .num 0), ("transition", .num 0), ("transition_range",
   .arr [.num 50, .num 1500]), ("init_states", .arr [.arr [.num 45, .num 10, .num 100]]), ("fadeoff", .num 200),
   ("random_seed", .num 1), ("backgrounds", .arr [.arr [.num 45, .num 10, .num 100]])]

/-- `EFFECT_ICICLE` (iot/effects.py:148-169). -/
def icicle : List (String × Json) :=
  [("custom", .num 0), ("id", .str "joqVjlaTsgzmuQQBAlHRkkPAqkBUiqeb"), ("brightness", .num 70), ("name",
   .str "Icicle"), ("segments", .arr [.num 0]), ("expansion_strategy", .num 1), ("enable", .num 1), ("type",
   .str "sequence"), ("duration", .num 0), ("transition", .num 400), ("direction", .num 4), ("spread", .num 3),
   ("repeat_times", .num 0), ("sequence", .arr [.arr [.num 190, .num 100, .num 70], .arr [.num 190, .num 100,
   .num 70], .arr [.num 190, .num 30, .num 50], .arr [.num 190, .num 100, .num 70], .arr [.num 190, .num 100,
   .num 70]])]

/-- `EFFECT_LIGHTNING` (iot/effects.py:170-188). -/
def lightning : List (String × Json) :=
  [("custom", .num 0), ("id", .str "ojqpUUxdGHoIugGPknrUcRoyJiItsjuE"), ("brightness", .num 100), ("name",
   .str "Lightning"), ("segments", .arr [.num 7, .num 20, .num 23, .num 32, .num 34, .num 35, .num 49, .num 65,
   .num 66, .num 74, .num 80]), ("expansion_strategy", .num 1), ("enable", .num 1), ("type", .str "random"),
   ("hue_range", .arr [.num 240, .num 240]), ("saturation_range", .arr [.num 10, .num 11]), ("brightness_range",
   .arr [.num 90, .num 100]), ("duration", .num 0), ("transition", .num 50), ("init_states", .arr [.arr [.num 240,
   .num 30, .num 100]]), ("fadeoff", .num 150), ("random_seed", .num 600), ("backgrounds", .arr [.arr [.num 200,
   .num 100, .num 100], .arr [.num 200, .num 50, .num 10], .arr [.num 210, .num 10, .num 50], .arr [.num 240,
   .num 10, .num 0]])]

/-- `EFFECT_OCEAN` (iot/effects.py:189-204). -/
def ocean : List (String × Json) :=
  [("custom", .num 0), ("id", .str "oJjUMosgEMrdumfPANKbkFmBcAdEQsPy"), ("brightness", .num 30), ("name",
   .str "Ocean"), ("segments", .arr [.num 0]), ("expansion_strategy", .num 1), ("enable", .num 1), ("type",
   .str "sequence"), ("duration", .num 0), ("transition", .num 2000), ("direction", .num 3), ("spread", .num 16),
   ("repeat_times", .num 0), ("sequence", .arr [.arr [.num 198, .num 84, .num 30], .arr [.num 198, .num 70,
   .num 30], .arr [.num 198, .num 10, .num 30]])]

/-- `EFFECT_RAINBOW` (iot/effects.py:205-220). -/
def rainbow : List (String × Json) :=
  [("custom", .num 0), ("id", .str "izRhLCQNcDzIKdpMPqSTtBMuAIoreAuT"), ("brightness", .num 100), ("name",
   .str "Rainbow"), ("segments", .arr [.num 0]), ("expansion_strategy", .num 1), ("enable", .num 1), ("type",
   .str "sequence"), ("duration", .num 0), ("transition", .num 1500), ("direction", .num 1), ("spread", .num 12),
   ("repeat_times", .num 0), ("sequence", .arr [.arr [.num 0, .num 100, .num 100], .arr [.num 100, .num 100,
   .num 100], .arr [.num 200, .num 100, .num 100], .arr [.num 300, .num 100, .num 100]])]

/-- `EFFECT_RAINDROP` (iot/effects.py:221-239). -/
def raindrop : List (String × Json) :=
  [("custom", .num 0), ("id", .str "QbDFwiSFmLzQenUOPnJrsGqyIVrJrRsl"), ("brightness", .num 30), ("name",
   .str "Raindrop"), ("segments", .arr [.num 0]), ("expansion_strategy", .num 1), ("enable", .num 1), ("type",
   .str "random"), ("hue_range", .arr [.num 200, .num 200]), ("saturation_range", .arr [.num 10, .num 20]),
   ("brightness_range", .arr [.num 10, .num 30]), ("duration", .num 0), ("transition", .num 1000), ("init_states",
   .arr [.arr [.num 200, .num 40, .num 100]]), ("fadeoff", .num 1000), ("random_seed", .num 24), ("backgrounds",
   .arr [.arr [.num 200, .num 40, .num 0]])]

/-- `EFFECT_SPRING` (iot/effects.py:240-259). -/
def spring : List (String × Json) :=
  [("custom", .num 0), ("id", .str "URdUpEdQbnOOechDBPMkKrwhSupLyvAg"), ("brightness", .num 100), ("name",
   .str "Spring"), ("segments", .arr [.num 0]), ("expansion_strategy", .num 1), ("enable", .num 1), ("type",
   .str "random"), ("hue_range", .arr [.num 0, .num 90]), ("saturation_range", .arr [.num 30, .num 100]),
   ("brightness_range", .arr [.num 90, .num 100]), ("duration", .num 600), ("transition", .num 0),
   ("transition_range", .arr [.num 2000, .num 6000]), ("init_states", .arr [.arr [.num 80, .num 30, .num 100]]),
   ("fadeoff", .num 1000), ("random_seed", .num 20), ("backgrounds", .arr [.arr [.num 130, .num 100, .num 40]])]

/-- `EFFECT_VALENTINES` (iot/effects.py:260-278). -/
def valentines : List (String × Json) :=
  [("custom", .num 0), ("id", .str "QglBhMShPHUAuxLqzNEefFrGiJwahOmz"), ("brightness", .num 100), ("name",
   .str "Valentines"), ("segments", .arr [.num 0]), ("expansion_strategy", .num 1), ("enable", .num 1), ("type",
   .str "random"), ("hue_range", .arr [.num 340, .num 340]), ("saturation_range", .arr [.num 30, .num 40]),
   ("brightness_range", .arr [.num 90, .num 100]), ("duration", .num 600), ("transition", .num 2000),
   ("init_states", .arr [.arr [.num 340, .num 30, .num 100]]), ("fadeoff", .num 3000), ("random_seed", .num 100),
   ("backgrounds", .arr [.arr [.num 340, .num 20, .num 50], .arr [.num 20, .num 50, .num 50], .arr [.num 0,
   .num 100, .num 50]])]

/-- `EFFECTS_LIST_V1` (iot/effects.py:280-295). -/
def list : List (List (String × Json)) :=
  [aurora, bubblingCauldron, candyCane, christmas, flicker, hanukkah, hauntedMansion, icicle, lightning, ocean,
   rainbow, raindrop, spring, valentines]

/-- `effect["name"]`, a string in every entry. -/
def nameOf (e : List (String × Json)) : String :=
  match Dict.get? e "name" with
  | some (.str s) => s
  | _ => ""

/-- `EFFECT_NAMES_V1` (iot/effects.py:297). -/
def names : List String := list.map nameOf

/-- `EFFECT_MAPPING_V1` (iot/effects.py:298). -/
def mapping : Dict String (List (String × Json)) :=
  list.foldl (fun d e => Dict.set d (nameOf e) e) []

end Legacy

namespace Smart

/-- `EFFECT_AURORA` (smart/effects.py:34-55). -/
def aurora : List (String × Json) :=
  [("custom", .num 0), ("id", .str "TapoStrip_1MClvV18i15Jq3bvJVf0eP"), ("brightness", .num 100), ("name",
   .str "Aurora"), ("enable", .num 1), ("segments", .arr [.num 0]), ("expansion_strategy", .num 1),
   ("display_colors", .arr [.arr [.num 120, .num 100, .num 100], .arr [.num 240, .num 100, .num 100],
   .arr [.num 260, .num 100, .num 100], .arr [.num 280, .num 100, .num 100]]), ("type", .str "sequence"),
   ("duration", .num 0), ("transition", .num 1500), ("direction", .num 4), ("spread", .num 7), ("repeat_times",
   .num 0), ("sequence", .arr [.arr [.num 120, .num 100, .num 100], .arr [.num 240, .num 100, .num 100],
   .arr [.num 260, .num 100, .num 100], .arr [.num 280, .num 100, .num 100]])]

/-- `EFFECT_BUBBLING_CAULDRON` (smart/effects.py:56-75). -/
def bubblingCauldron : List (String × Json) :=
  [("custom", .num 0), ("id", .str "TapoStrip_6DlumDwO2NdfHppy50vJtu"), ("brightness", .num 100), ("name",
   .str "Bubbling Cauldron"), ("enable", .num 1), ("segments", .arr [.num 0]), ("expansion_strategy", .num 1),
   ("display_colors", .arr [.arr [.num 100, .num 100, .num 100], .arr [.num 270, .num 100, .num 100]]), ("type",
   .str "random"), ("hue_range", .arr [.num 100, .num 270]), ("saturation_range", .arr [.num 80, .num 100]),
   ("brightness_range", .arr [.num 50, .num 100]), ("duration", .num 0), ("transition", .num 200), ("init_states",
   .arr [.arr [.num 270, .num 100, .num 100]]), ("fadeoff", .num 1000), ("random_seed", .num 24), ("backgrounds",
   .arr [.arr [.num 270, .num 40, .num 50]])]

/-- `EFFECT_CANDY_CANE` (smart/effects.py:76-109). -/
def candyCane : List (String × Json) :=
  [("custom", .num 0), ("id", .str "TapoStrip_6Dy0Nc45vlhFPEzG021Pe9"), ("brightness", .num 100), ("name",
   .str "Candy Cane"), ("enable", .num 1), ("segments", .arr [.num 0]), ("expansion_strategy", .num 1),
   ("display_colors", .arr [.arr [.num 0, .num 0, .num 100], .arr [.num 0, .num 81, .num 100]]), ("type",
   .str "sequence"), ("duration", .num 700), ("transition", .num 500), ("direction", .num 1), ("spread", .num 1),
   ("repeat_times", .num 0), ("sequence", .arr [.arr [.num 0, .num 0, .num 100], .arr [.num 0, .num 0, .num 100],
   .arr [.num 360, .num 81, .num 100], .arr [.num 0, .num 0, .num 100], .arr [.num 0, .num 0, .num 100],
   .arr [.num 360, .num 81, .num 100], .arr [.num 360, .num 81, .num 100], .arr [.num 0, .num 0, .num 100],
   .arr [.num 0, .num 0, .num 100], .arr [.num 360, .num 81, .num 100], .arr [.num 360, .num 81, .num 100],
   .arr [.num 360, .num 81, .num 100], .arr [.num 360, .num 81, .num 100], .arr [.num 0, .num 0, .num 100],
   .arr [.num 0, .num 0, .num 100], .arr [.num 360, .num 81, .num 100]])]

/-- `EFFECT_CHRISTMAS` (smart/effects.py:110-129). -/
def christmas : List (String × Json) :=
  [("custom", .num 0), ("id", .str "TapoStrip_5zkiG6avJ1IbhjiZbRlWvh"), ("brightness", .num 100), ("name",
   .str "Christmas"), ("enable", .num 1), ("segments", .arr [.num 0]), ("expansion_strategy", .num 1),
   ("display_colors", .arr [.arr [.num 136, .num 98, .num 100], .arr [.num 350, .num 97, .num 100]]), ("type",
   .str "random"), ("hue_range", .arr [.num 136, .num 146]), ("saturation_range", .arr [.num 90, .num 100]),
   ("brightness_range", .arr [.num 50, .num 100]), ("duration", .num 5000), ("transition", .num 0), ("init_states",
   .arr [.arr [.num 136, .num 0, .num 100]]), ("fadeoff", .num 2000), ("random_seed", .num 100), ("backgrounds",
   .arr [.arr [.num 136, .num 98, .num 75], .arr [.num 136, .num 0, .num 0], .arr [.num 350, .num 0, .num 100],
   .arr [.num 350, .num 97, .num 94]])]

/-- `EFFECT_FLICKER` (smart/effects.py:130-147). -/
def flicker : List (String × Json) :=
  [("custom", .num 0), ("id", .str "TapoStrip_4HVKmMc6vEzjm36jXaGwMs"), ("brightness", .num 100), ("name",
   .str "Flicker"), ("enable", .num 1), ("segments", .arr [.num 1]), ("expansion_strategy", .num 1),
   ("display_colors", .arr [.arr [.num 30, .num 81, .num 100], .arr [.num 40, .num 100, .num 100]]), ("type",
   .str "random"), ("hue_range", .arr [.num 30, .num 40]), ("saturation_range", .arr [.num 100, .num 100]),
   ("brightness_range", .arr [.num 50, .num 100]), ("duration", .num 0), ("transition", .num 0),
   ("transition_range", .arr [.num 375, .num 500]), ("init_states", .arr [.arr [.num 30, .num 81, .num 80]])]

/-- `EFFECT_GRANDMAS_CHRISTMAS_LIGHTS` (smart/effects.py:148-180). -/
def grandmasChristmasLights : List (String × Json) :=
  [("custom", .num 0), ("id", .str "TapoStrip_3Gk6CmXOXbjCiwz9iD543C"), ("brightness", .num 100), ("name",
   .str "Grandma's Christmas Lights"), ("enable", .num 1), ("segments", .arr [.num 0]), ("expansion_strategy",
   .num 1), ("display_colors", .arr [.arr [.num 30, .num 100, .num 100], .arr [.num 240, .num 100, .num 100],
   .arr [.num 130, .num 100, .num 100], .arr [.num 0, .num 100, .num 100]]), ("type", .str "sequence"), ("duration",
   .num 5000), ("transition", .num 100), ("direction", .num 1), ("spread", .num 1), ("repeat_times", .num 0),
   ("sequence", .arr [.arr [.num 30, .num 100, .num 100], .arr [.num 30, .num 0, .num 0], .arr [.num 30, .num 0,
   .num 0], .arr [.num 240, .num 100, .num 100], .arr [.num 240, .num 0, .num 0], .arr [.num 240, .num 0, .num 0],
   .arr [.num 240, .num 0, .num 100], .arr [.num 240, .num 0, .num 0], .arr [.num 240, .num 0, .num 0],
   .arr [.num 130, .num 100, .num 100], .arr [.num 130, .num 0, .num 0], .arr [.num 130, .num 0, .num 0],
   .arr [.num 0, .num 100, .num 100], .arr [.num 0, .num 0, .num 0], .arr [.num 0, .num 0, .num 0]])]

/-- `EFFECT_HANUKKAH` (smart/effects.py:181-198). -/
def hanukkah : List (String × Json) :=
  [("custom", .num 0), ("id", .str "TapoStrip_2YTk4wramLKv5XZ9KFDVYm"), ("brightness", .num 100), ("name",
   .str "Hanukkah"), ("enable", .num 1), ("segments", .arr [.num 1]), ("expansion_strategy", .num 1),
   ("display_colors", .arr [.arr [.num 200, .num 100, .num 100]]), ("type", .str "random"), ("hue_range",
   .arr [.num 200, .num 210]), ("saturation_range", .arr [.num 0, .num 100]), ("brightness_range", .arr [.num 50,
   .num 100]), ("duration", .num 1500), ("transition", .num 0), ("transition_range", .arr [.num 400, .num 500]),
   ("init_states", .arr [.arr [.num 35, .num 81, .num 80]])]

/-- `EFFECT_HAUNTED_MANSION` (smart/effects.py:199-219). -/
def hauntedMansion : List (String × Json) :=
  [("custom", .num 0), ("id", .str "TapoStrip_4rJ6JwC7I9st3tQ8j4lwlI"), ("brightness", .num 100), ("name",
   .str "Haunted Mansion"), ("enable", .num 1), ("segments", .arr [.num 80]), ("expansion_strategy", .num 2),
   ("display_colors", .arr [.arr [.num 44, .num 9, .num 100]]), ("type", .str "random"), ("hue_range",
   .arr [.num 45, .num 45]), ("saturation_range", .arr [.num 10, .num 10]), ("brightness_range", .arr [.num 0,
   .num 80]), ("duration", .num 0), ("transition", .num 0), ("transition_range", .arr [.num 50, .num 1500]),
   ("init_states", .arr [.arr [.num 45, .num 10, .num 100]]), ("fadeoff", .num 200), ("random_seed", .num 1),
   ("backgrounds", .arr [.arr [.num 45, .num 10, .num 100]])]

/-- `EFFECT_ICICLE` (smart/effects.py:220-242). -/
def icicle : List (String × Json) :=
  [("custom", .num 0), ("id", .str "TapoStrip_7UcYLeJbiaxVIXCxr21tpx"), ("brightness", .num 100), ("name",
   .str "Icicle"), ("enable", .num 1), ("segments", .arr [.num 0]), ("expansion_strategy", .num 1),
   ("display_colors", .arr [.arr [.num 190, .num 100, .num 100]]), ("type", .str "sequence"), ("duration", .num 0),
   ("transition", .num 400), ("direction", .num 4), ("spread", .num 3), ("repeat_times", .num 0), ("sequence",
   .arr [.arr [.num 190, .num 100, .num 70], .arr [.num 190, .num 100, .num 70], .arr [.num 190, .num 30, .num 50],
   .arr [.num 190, .num 100, .num 70], .arr [.num 190, .num 100, .num 70]])]

/-- `EFFECT_LIGHTNING` (smart/effects.py:243-262). -/
def lightning : List (String × Json) :=
  [("custom", .num 0), ("id", .str "TapoStrip_7OGzfSfnOdhoO2ri4gOHWn"), ("brightness", .num 100), ("name",
   .str "Lightning"), ("enable", .num 1), ("segments", .arr [.num 7]), ("expansion_strategy", .num 1),
   ("display_colors", .arr [.arr [.num 210, .num 9, .num 100], .arr [.num 200, .num 50, .num 100], .arr [.num 200,
   .num 100, .num 100]]), ("type", .str "random"), ("hue_range", .arr [.num 240, .num 240]), ("saturation_range",
   .arr [.num 10, .num 11]), ("brightness_range", .arr [.num 90, .num 100]), ("duration", .num 0), ("transition",
   .num 50), ("init_states", .arr [.arr [.num 240, .num 30, .num 100]]), ("fadeoff", .num 150), ("random_seed",
   .num 50), ("backgrounds", .arr [.arr [.num 200, .num 100, .num 100], .arr [.num 200, .num 50, .num 10],
   .arr [.num 210, .num 10, .num 50], .arr [.num 240, .num 10, .num 0]])]

/-- `EFFECT_OCEAN` (smart/effects.py:263-279). -/
def ocean : List (String × Json) :=
  [("custom", .num 0), ("id", .str "TapoStrip_0fOleCdwSgR0nfjkReeYfw"), ("brightness", .num 100), ("name",
   .str "Ocean"), ("enable", .num 1), ("segments", .arr [.num 0]), ("expansion_strategy", .num 1),
   ("display_colors", .arr [.arr [.num 198, .num 84, .num 100]]), ("type", .str "sequence"), ("duration", .num 0),
   ("transition", .num 2000), ("direction", .num 3), ("spread", .num 16), ("repeat_times", .num 0), ("sequence",
   .arr [.arr [.num 198, .num 84, .num 30], .arr [.num 198, .num 70, .num 30], .arr [.num 198, .num 10, .num 30]])]

/-- `EFFECT_RAINBOW` (smart/effects.py:280-301). -/
def rainbow : List (String × Json) :=
  [("custom", .num 0), ("id", .str "TapoStrip_7CC5y4lsL8pETYvmz7UOpQ"), ("brightness", .num 100), ("name",
   .str "Rainbow"), ("enable", .num 1), ("segments", .arr [.num 0]), ("expansion_strategy", .num 1),
   ("display_colors", .arr [.arr [.num 0, .num 100, .num 100], .arr [.num 100, .num 100, .num 100], .arr [.num 200,
   .num 100, .num 100], .arr [.num 300, .num 100, .num 100]]), ("type", .str "sequence"), ("duration", .num 0),
   ("transition", .num 1500), ("direction", .num 1), ("spread", .num 12), ("repeat_times", .num 0), ("sequence",
   .arr [.arr [.num 0, .num 100, .num 100], .arr [.num 100, .num 100, .num 100], .arr [.num 200, .num 100,
   .num 100], .arr [.num 300, .num 100, .num 100]])]

/-- `EFFECT_RAINDROP` (smart/effects.py:302-321). -/
def raindrop : List (String × Json) :=
  [("custom", .num 0), ("id", .str "TapoStrip_1t2nWlTBkV8KXBZ0TWvBjs"), ("brightness", .num 100), ("name",
   .str "Raindrop"), ("enable", .num 1), ("segments", .arr [.num 0]), ("expansion_strategy", .num 1),
   ("display_colors", .arr [.arr [.num 200, .num 9, .num 100], .arr [.num 200, .num 19, .num 100]]), ("type",
   .str "random"), ("hue_range", .arr [.num 200, .num 200]), ("saturation_range", .arr [.num 10, .num 20]),
   ("brightness_range", .arr [.num 10, .num 30]), ("duration", .num 0), ("transition", .num 1000), ("init_states",
   .arr [.arr [.num 200, .num 40, .num 100]]), ("fadeoff", .num 1000), ("random_seed", .num 24), ("backgrounds",
   .arr [.arr [.num 200, .num 40, .num 0]])]

/-- `EFFECT_SPRING` (smart/effects.py:322-342). -/
def spring : List (String × Json) :=
  [("custom", .num 0), ("id", .str "TapoStrip_1nL6GqZ5soOxj71YDJOlZL"), ("brightness", .num 100), ("name",
   .str "Spring"), ("enable", .num 1), ("segments", .arr [.num 0]), ("expansion_strategy", .num 1),
   ("display_colors", .arr [.arr [.num 0, .num 30, .num 100], .arr [.num 130, .num 100, .num 100]]), ("type",
   .str "random"), ("hue_range", .arr [.num 0, .num 90]), ("saturation_range", .arr [.num 30, .num 100]),
   ("brightness_range", .arr [.num 90, .num 100]), ("duration", .num 600), ("transition", .num 0),
   ("transition_range", .arr [.num 2000, .num 6000]), ("init_states", .arr [.arr [.num 80, .num 30, .num 100]]),
   ("fadeoff", .num 1000), ("random_seed", .num 20), ("backgrounds", .arr [.arr [.num 130, .num 100, .num 40]])]

/-- `EFFECT_SUNRISE` (smart/effects.py:343-378). -/
def sunrise : List (String × Json) :=
  [("custom", .num 0), ("id", .str "TapoStrip_1OVSyXIsDxrt4j7OxyRvqi"), ("brightness", .num 100), ("name",
   .str "Sunrise"), ("enable", .num 1), ("segments", .arr [.num 0]), ("expansion_strategy", .num 2),
   ("display_colors", .arr [.arr [.num 0, .num 0, .num 100], .arr [.num 30, .num 95, .num 100], .arr [.num 0,
   .num 100, .num 100]]), ("type", .str "pulse"), ("duration", .num 600), ("transition", .num 60000), ("direction",
   .num 1), ("spread", .num 1), ("repeat_times", .num 1), ("run_time", .num 0), ("sequence", .arr [.arr [.num 0,
   .num 100, .num 5], .arr [.num 0, .num 100, .num 5], .arr [.num 10, .num 100, .num 6], .arr [.num 15, .num 100,
   .num 7], .arr [.num 20, .num 100, .num 8], .arr [.num 20, .num 100, .num 10], .arr [.num 30, .num 100, .num 12],
   .arr [.num 30, .num 95, .num 15], .arr [.num 30, .num 90, .num 20], .arr [.num 30, .num 80, .num 25],
   .arr [.num 30, .num 75, .num 30], .arr [.num 30, .num 70, .num 40], .arr [.num 30, .num 60, .num 50],
   .arr [.num 30, .num 50, .num 60], .arr [.num 30, .num 20, .num 70], .arr [.num 30, .num 0, .num 100]]),
   ("trans_sequence", .arr [])]

/-- `EFFECT_SUNSET` (smart/effects.py:379-414). -/
def sunset : List (String × Json) :=
  [("custom", .num 0), ("id", .str "TapoStrip_5NiN0Y8GAUD78p4neKk9EL"), ("brightness", .num 100), ("name",
   .str "Sunset"), ("enable", .num 1), ("segments", .arr [.num 0]), ("expansion_strategy", .num 2),
   ("display_colors", .arr [.arr [.num 0, .num 100, .num 100], .arr [.num 30, .num 95, .num 100], .arr [.num 0,
   .num 0, .num 100]]), ("type", .str "pulse"), ("duration", .num 600), ("transition", .num 60000), ("direction",
   .num 1), ("spread", .num 1), ("repeat_times", .num 1), ("run_time", .num 0), ("sequence", .arr [.arr [.num 30,
   .num 0, .num 100], .arr [.num 30, .num 20, .num 100], .arr [.num 30, .num 50, .num 99], .arr [.num 30, .num 60,
   .num 98], .arr [.num 30, .num 70, .num 97], .arr [.num 30, .num 75, .num 95], .arr [.num 30, .num 80, .num 93],
   .arr [.num 30, .num 90, .num 90], .arr [.num 30, .num 95, .num 85], .arr [.num 30, .num 100, .num 80],
   .arr [.num 20, .num 100, .num 70], .arr [.num 20, .num 100, .num 60], .arr [.num 15, .num 100, .num 50],
   .arr [.num 10, .num 100, .num 40], .arr [.num 0, .num 100, .num 30], .arr [.num 0, .num 100, .num 0]]),
   ("trans_sequence", .arr [])]

/-- `EFFECT_VALENTINES` (smart/effects.py:415-434). -/
def valentines : List (String × Json) :=
  [("custom", .num 0), ("id", .str "TapoStrip_2q1Vio9sSjHmaC7JS9d30l"), ("brightness", .num 100), ("name",
   .str "Valentines"), ("enable", .num 1), ("segments", .arr [.num 0]), ("expansion_strategy", .num 1),
   ("display_colors", .arr [.arr [.num 339, .num 19, .num 100], .arr [.num 19, .num 50, .num 100], .arr [.num 0,
   .num 100, .num 100], .arr [.num 339, .num 40, .num 100]]), ("type", .str "random"), ("hue_range", .arr [.num 340,
   .num 340]), ("saturation_range", .arr [.num 30, .num 40]), ("brightness_range", .arr [.num 90, .num 100]),
   ("duration", .num 600), ("transition", .num 2000), ("init_states", .arr [.arr [.num 340, .num 30, .num 100]]),
   ("fadeoff", .num 3000), ("random_seed", .num 100), ("backgrounds", .arr [.arr [.num 340, .num 20, .num 50],
   .arr [.num 20, .num 50, .num 50], .arr [.num 0, .num 100, .num 50]])]

/-- `EFFECTS_LIST` (smart/effects.py:435-453). -/
def list : List (List (String × Json)) :=
  [aurora, bubblingCauldron, candyCane, christmas, flicker, grandmasChristmasLights, hanukkah, hauntedMansion,
   icicle, lightning, ocean, rainbow, raindrop, spring, sunrise, sunset, valentines]

/-- `effect["name"]`, a string in every entry. -/
def nameOf (e : List (String × Json)) : String :=
  match Dict.get? e "name" with
  | some (.str s) => s
  | _ => ""

/-- `EFFECT_NAMES` (smart/effects.py:455). -/
def names : List String := list.map nameOf

/-- `EFFECT_MAPPING` (smart/effects.py:456). -/
def mapping : Dict String (List (String × Json)) :=
  list.foldl (fun d e => Dict.set d (nameOf e) e) []

end Smart

end Kasa.Effects

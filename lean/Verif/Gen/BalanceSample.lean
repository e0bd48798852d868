import Verif.Misc.Json
/-!
# A shipped balance unit

Generated by tools/gen_json.py from /repo/assets/BalanceData/95841/Tempest.json.
-/
namespace S2.Json

/-- Floating point numbers as rational numbers (`none` is an infinity or a NaN; nothing is ever rounded) and dates as their
texts, for trying things out. [example, no counterpart in /repo] -/
def ratPrims : Prims where
  F32 := Option Rat
  F64 := Rat
  zero := some 0
  widen := id
  narrow := some
  ofInt i := some i
  Date := String
  epoch := "1970-01-01T00:00:00"
  showDate := id
  readDate := some

/-- The tree in /repo/assets/BalanceData/95841/Tempest.json. -/
def tempestFile : Json ratPrims :=
  .obj [("@id", .str "Tempest"),
    ("abilities", .obj [("ability", .arr [.obj [("@id", .str "stop"),
          ("@index", .int 41),
          ("command", .arr [.obj [("@id", .str "Stop"),
              ("@index", .int 0),
              ("meta", .obj [("@hotkey", .str "6"),
                ("@icon", .str "btn-command-stop"),
                ("@index", .null),
                ("@name", .str "5"),
                ("@race", .null),
                ("@source", .null),
                ("@tooltip", .str "7"),
                ("@type", .str "command")])]])], .obj [("@id", .str "attack"),
          ("@index", .int 46),
          ("command", .arr [.obj [("@id", .str "Execute"),
              ("@index", .int 0),
              ("meta", .obj [("@hotkey", .str "34"),
                ("@icon", .str "btn-command-attack"),
                ("@index", .null),
                ("@name", .str "33"),
                ("@race", .null),
                ("@source", .null),
                ("@tooltip", .str "35"),
                ("@type", .str "command")])]])], .obj [("@id", .str "move"),
          ("@index", .int 43),
          ("command", .arr [.obj [("@id", .str "Move"),
              ("@index", .int 0),
              ("meta", .obj [("@hotkey", .str "9"),
                ("@icon", .str "btn-command-move"),
                ("@index", .null),
                ("@name", .str "8"),
                ("@race", .null),
                ("@source", .null),
                ("@tooltip", .str "10"),
                ("@type", .str "command")])], .obj [("@id", .str "Patrol"),
              ("@index", .int 1),
              ("meta", .obj [("@hotkey", .str "12"),
                ("@icon", .str "btn-command-patrol"),
                ("@index", .null),
                ("@name", .str "11"),
                ("@race", .null),
                ("@source", .null),
                ("@tooltip", .str "13"),
                ("@type", .str "command")])], .obj [("@id", .str "HoldPos"),
              ("@index", .int 2),
              ("meta", .obj [("@hotkey", .str "15"),
                ("@icon", .str "btn-command-holdposition"),
                ("@index", .null),
                ("@name", .str "14"),
                ("@race", .null),
                ("@source", .null),
                ("@tooltip", .str "16"),
                ("@type", .str "command")])]])], .obj [("@id", .str "TempestGroundAttackUpgrade"),
          ("@index", .null),
          ("command", .arr [.obj [("@id", .null),
              ("@index", .int 0),
              ("meta", .obj [("@hotkey", .null),
                ("@icon", .str "btn-ability-protoss-disruptionblast"),
                ("@index", .null),
                ("@name", .str "1353"),
                ("@race", .null),
                ("@source", .null),
                ("@tooltip", .str "1354"),
                ("@type", .str "passive")])]])]])]),
    ("armor", .obj [("@max", .int 2),
      ("@start", .int 2)]),
    ("attributes", .obj [("attribute", .arr [.obj [("@type", .str "Armored")], .obj [("@type", .str "Mechanical")], .obj [("@type", .str "Massive")]])]),
    ("builds", .obj [("unit", .arr [])]),
    ("cost", .obj [("@cooldown", .null),
      ("@energy", .null),
      ("@life", .null),
      ("@minerals", .int 250),
      ("@supply", .flt (4 : Rat)),
      ("@time", .flt (60 : Rat)),
      ("@vespene", .int 175)]),
    ("life", .obj [("@max", .int 200),
      ("@regenRate", .null),
      ("@start", .int 200)]),
    ("meta", .obj [("@hotkey", .str "749"),
      ("@icon", .str "btn-unit-protoss-tempest"),
      ("@index", .int 186),
      ("@name", .str "31"),
      ("@race", .str "Prot"),
      ("@source", .str "Swarm.SC2Mod"),
      ("@tooltip", .str "750"),
      ("@type", .null)]),
    ("misc", .obj [("@cargoCapacity", .null),
      ("@cargoSize", .int 0),
      ("@count", .null),
      ("@footprint", .null),
      ("@radius", .flt (9/8 : Rat)),
      ("@range", .null),
      ("@sightRadius", .flt (12 : Rat)),
      ("@speed", .null),
      ("@supply", .flt (-4 : Rat)),
      ("@targets", .null)]),
    ("movement", .obj [("@acceleration", .flt (3 : Rat)),
      ("@deceleration", .flt (3 : Rat)),
      ("@speed", .flt (9/4 : Rat)),
      ("@turnRate", .flt (720 : Rat)),
      ("@type", .str "Fly")]),
    ("producer", .obj [("@id", .str "Stargate"),
      ("@name", .str "710")]),
    ("requires", .obj [("unit", .arr [.obj [("@id", .str "FleetBeacon"),
          ("@name", .str "153")]])]),
    ("researches", .null),
    ("score", .obj [("@build", .int 425),
      ("@kill", .int 425)]),
    ("shieldArmor", .obj [("@max", .int 0),
      ("@start", .int 0)]),
    ("shields", .obj [("@delay", .flt (10 : Rat)),
      ("@max", .int 100),
      ("@regenRate", .flt (2 : Rat)),
      ("@start", .int 100)]),
    ("strengths", .obj [("unit", .arr [.obj [("@id", .str "Liberator"),
          ("@name", .str "634")], .obj [("@id", .str "BroodLord"),
          ("@name", .str "464")], .obj [("@id", .str "Colossus"),
          ("@name", .str "21")]])]),
    ("trains", .obj [("unit", .arr [])]),
    ("upgrades", .obj [("upgrade", .arr [.obj [("@id", .str "TempestGroundAttackUpgrade"),
          ("level", .arr [.obj [("@id", .str ""),
              ("@index", .int 0),
              ("cost", .obj [("@cooldown", .null),
                ("@energy", .null),
                ("@life", .null),
                ("@minerals", .int 150),
                ("@supply", .null),
                ("@time", .flt (140 : Rat)),
                ("@vespene", .int 150)]),
              ("meta", .obj [("@hotkey", .str "718"),
                ("@icon", .str "btn-ability-protoss-disruptionblast"),
                ("@index", .null),
                ("@name", .str "1355"),
                ("@race", .null),
                ("@source", .null),
                ("@tooltip", .str "719"),
                ("@type", .null)]),
              ("requires", .arr [])]])]])]),
    ("weaknesses", .obj [("unit", .arr [.obj [("@id", .str "VikingFighter"),
          ("@name", .str "29")], .obj [("@id", .str "Corruptor"),
          ("@name", .str "30")], .obj [("@id", .str "VoidRay"),
          ("@name", .str "82")]])]),
    ("weapons", .obj [("weapon", .arr [.obj [("@id", .str "Tempest"),
          ("@index", .int 67),
          ("meta", .obj [("@hotkey", .null),
            ("@icon", .str "btn-upgrade-protoss-airweaponslevel0"),
            ("@index", .null),
            ("@name", .str "1351"),
            ("@race", .null),
            ("@source", .null),
            ("@tooltip", .str "0"),
            ("@type", .null)]),
          ("misc", .obj [("@cargoCapacity", .null),
            ("@cargoSize", .null),
            ("@count", .null),
            ("@footprint", .null),
            ("@radius", .null),
            ("@range", .flt (13 : Rat)),
            ("@sightRadius", .null),
            ("@speed", .flt (13841203/4194304 : Rat)),
            ("@supply", .null),
            ("@targets", .str "air")]),
          ("score", .null)], .obj [("@id", .str "TempestGround"),
          ("@index", .int 112),
          ("meta", .obj [("@hotkey", .null),
            ("@icon", .str "btn-upgrade-protoss-airweaponslevel0"),
            ("@index", .null),
            ("@name", .str "1352"),
            ("@race", .null),
            ("@source", .null),
            ("@tooltip", .str "0"),
            ("@type", .null)]),
          ("misc", .obj [("@cargoCapacity", .null),
            ("@cargoSize", .null),
            ("@count", .null),
            ("@footprint", .null),
            ("@radius", .null),
            ("@range", .flt (10 : Rat)),
            ("@sightRadius", .null),
            ("@speed", .flt (13841203/4194304 : Rat)),
            ("@supply", .null),
            ("@targets", .str "ground")]),
          ("score", .null)]])])]

end S2.Json

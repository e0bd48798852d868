import Verif.Schema.Val
/-! Generated by tools/extract_stats.py from /repo/src/tracker_events/player_stats.rs and
/repo/src/versions/protocol87702/events/tracker/mod.rs.  Do not edit. -/
namespace S2

/-- `PlayerStats` (/repo/src/tracker_events/player_stats.rs:39-79) -/
structure PlayerStats where
  minerals_current : Int
  vespene_current : Int
  minerals_collection_rate : Int
  vespene_collection_rate : Int
  workers_active_count : Int
  minerals_used_in_progress_army : Int
  minerals_used_in_progress_economy : Int
  minerals_used_in_progress_technology : Int
  vespene_used_in_progress_army : Int
  vespene_used_in_progress_economy : Int
  vespene_used_in_progress_technology : Int
  minerals_used_current_army : Int
  minerals_used_current_economy : Int
  minerals_used_current_technology : Int
  vespene_used_current_army : Int
  vespene_used_current_economy : Int
  vespene_used_current_technology : Int
  minerals_lost_army : Int
  minerals_lost_economy : Int
  minerals_lost_technology : Int
  vespene_lost_army : Int
  vespene_lost_economy : Int
  vespene_lost_technology : Int
  minerals_killed_army : Int
  minerals_killed_economy : Int
  minerals_killed_technology : Int
  vespene_killed_army : Int
  vespene_killed_economy : Int
  vespene_killed_technology : Int
  food_used : Int
  food_made : Int
  minerals_used_active_forces : Int
  vespene_used_active_forces : Int
  minerals_friendly_fire_army : Int
  minerals_friendly_fire_economy : Int
  minerals_friendly_fire_technology : Int
  vespene_friendly_fire_army : Int
  vespene_friendly_fire_economy : Int
  vespene_friendly_fire_technology : Int
  deriving DecidableEq, Repr, Inhabited

/-- `impl From<ReplayTrackerSPlayerStats> for PlayerStats` (/repo/src/versions/protocol87702/events/tracker/mod.rs:188-238);
`/ 4096` on `i32` truncates towards zero.  `ws` are the 39 wire fields in schema order. -/
def convStats (ws : List Int) : PlayerStats where
  minerals_current := ws.getD 0 0 -- m_score_value_minerals_current
  vespene_current := ws.getD 1 0 -- m_score_value_vespene_current
  minerals_collection_rate := ws.getD 2 0 -- m_score_value_minerals_collection_rate
  vespene_collection_rate := ws.getD 3 0 -- m_score_value_vespene_collection_rate
  workers_active_count := ws.getD 4 0 -- m_score_value_workers_active_count
  minerals_used_in_progress_army := ws.getD 5 0 -- m_score_value_minerals_used_in_progress_army
  minerals_used_in_progress_economy := ws.getD 6 0 -- m_score_value_minerals_used_in_progress_economy
  minerals_used_in_progress_technology := ws.getD 7 0 -- m_score_value_minerals_used_in_progress_technology
  vespene_used_in_progress_army := ws.getD 8 0 -- m_score_value_vespene_used_in_progress_army
  vespene_used_in_progress_economy := ws.getD 9 0 -- m_score_value_vespene_used_in_progress_economy
  vespene_used_in_progress_technology := ws.getD 10 0 -- m_score_value_vespene_used_in_progress_technology
  minerals_used_current_army := ws.getD 11 0 -- m_score_value_minerals_used_current_army
  minerals_used_current_economy := ws.getD 12 0 -- m_score_value_minerals_used_current_economy
  minerals_used_current_technology := ws.getD 13 0 -- m_score_value_minerals_used_current_technology
  vespene_used_current_army := ws.getD 14 0 -- m_score_value_vespene_used_current_army
  vespene_used_current_economy := ws.getD 15 0 -- m_score_value_vespene_used_current_economy
  vespene_used_current_technology := ws.getD 16 0 -- m_score_value_vespene_used_current_technology
  minerals_lost_army := ws.getD 17 0 -- m_score_value_minerals_lost_army
  minerals_lost_economy := ws.getD 18 0 -- m_score_value_minerals_lost_economy
  minerals_lost_technology := ws.getD 19 0 -- m_score_value_minerals_lost_technology
  vespene_lost_army := ws.getD 20 0 -- m_score_value_vespene_lost_army
  vespene_lost_economy := ws.getD 21 0 -- m_score_value_vespene_lost_economy
  vespene_lost_technology := ws.getD 22 0 -- m_score_value_vespene_lost_technology
  minerals_killed_army := ws.getD 23 0 -- m_score_value_minerals_killed_army
  minerals_killed_economy := ws.getD 24 0 -- m_score_value_minerals_killed_economy
  minerals_killed_technology := ws.getD 25 0 -- m_score_value_minerals_killed_technology
  vespene_killed_army := ws.getD 26 0 -- m_score_value_vespene_killed_army
  vespene_killed_economy := ws.getD 27 0 -- m_score_value_vespene_killed_economy
  vespene_killed_technology := ws.getD 28 0 -- m_score_value_vespene_killed_technology
  food_used := (ws.getD 29 0).tdiv 4096 -- m_score_value_food_used
  food_made := (ws.getD 30 0).tdiv 4096 -- m_score_value_food_made
  minerals_used_active_forces := ws.getD 31 0 -- m_score_value_minerals_used_active_forces
  vespene_used_active_forces := ws.getD 32 0 -- m_score_value_vespene_used_active_forces
  minerals_friendly_fire_army := ws.getD 33 0 -- m_score_value_minerals_friendly_fire_army
  minerals_friendly_fire_economy := ws.getD 34 0 -- m_score_value_minerals_friendly_fire_economy
  minerals_friendly_fire_technology := ws.getD 35 0 -- m_score_value_minerals_friendly_fire_technology
  vespene_friendly_fire_army := ws.getD 36 0 -- m_score_value_vespene_friendly_fire_army
  vespene_friendly_fire_economy := ws.getD 37 0 -- m_score_value_vespene_friendly_fire_economy
  vespene_friendly_fire_technology := ws.getD 38 0 -- m_score_value_vespene_friendly_fire_technology

/-- `as_prop_name_value_vec` (/repo/src/tracker_events/player_stats.rs:83-224) -/
def PlayerStats.asPropNameValueVec (s : PlayerStats) : List (String × Int) :=
  [("minerals/current", s.minerals_current),
   ("vespene/current", s.vespene_current),
   ("minerals/collection_rate", s.minerals_collection_rate),
   ("vespene/collection_rate", s.vespene_collection_rate),
   ("workers_active_count", s.workers_active_count),
   ("minerals/used_in_progress_army", s.minerals_used_in_progress_army),
   ("minerals/used_in_progress_economy", s.minerals_used_in_progress_economy),
   ("minerals/used_in_progress_technology", s.minerals_used_in_progress_technology),
   ("vespene/used_in_progress_army", s.vespene_used_in_progress_army),
   ("vespene/used_in_progress_economy", s.vespene_used_in_progress_economy),
   ("vespene/used_in_progress_technology", s.vespene_used_in_progress_technology),
   ("minerals/used_current_army", s.minerals_used_current_army),
   ("minerals/used_current_economy", s.minerals_used_current_economy),
   ("minerals/used_current_technology", s.minerals_used_current_technology),
   ("vespene/used_current_army", s.vespene_used_current_army),
   ("vespene/used_current_economy", s.vespene_used_current_economy),
   ("vespene/used_current_technology", s.vespene_used_current_technology),
   ("minerals/lost_army", s.minerals_lost_army),
   ("minerals/lost_economy", s.minerals_lost_economy),
   ("minerals/lost_technology", s.minerals_lost_technology),
   ("vespene/lost_army", s.vespene_lost_army),
   ("vespene/lost_economy", s.vespene_lost_economy),
   ("vespene/lost_technology", s.vespene_lost_technology),
   ("minerals/killed_army", s.minerals_killed_army),
   ("minerals/killed_economy", s.minerals_killed_economy),
   ("minerals/killed_technology", s.minerals_killed_technology),
   ("vespene/killed_army", s.vespene_killed_army),
   ("vespene/killed_economy", s.vespene_killed_economy),
   ("vespene/killed_technology", s.vespene_killed_technology),
   ("food/used", s.food_used),
   ("food/made", s.food_made),
   ("minerals/used_active_forces", s.minerals_used_active_forces),
   ("vespene/used_active_forces", s.vespene_used_active_forces),
   ("minerals/friendly_fire_army", s.minerals_friendly_fire_army),
   ("minerals/friendly_fire_economy", s.minerals_friendly_fire_economy),
   ("minerals/friendly_fire_technology", s.minerals_friendly_fire_technology),
   ("vespene/friendly_fire_army", s.vespene_friendly_fire_army),
   ("vespene/friendly_fire_economy", s.vespene_friendly_fire_economy),
   ("vespene/friendly_fire_technology", s.vespene_friendly_fire_technology)]

end S2

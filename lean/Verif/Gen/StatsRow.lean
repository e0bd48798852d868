import Verif.Gen.PlayerStats
import Verif.Misc.Time
/-! Generated by tools/extract_stats.py from /repo/src/tracker_events/arrow_store/player_stats_flat_row.rs.  Do not edit. -/
namespace S2

/-- `PlayerStatsFlatRow` (/repo/src/tracker_events/arrow_store/player_stats_flat_row.rs:17-61) -/
structure StatsRow where
  player_id : Int
  minerals_current : Int
  vespene_current : Int
  minerals_collection_rate : Int
  vespene_collection_rate : Int
  workers_active_count : Int
  minerals_used_in_progress_army : Int
  minerals_used_in_progress_economy : Int
  minerals_used_in_progress_technology : Int
  vespene_used_in_progress_army : Int
  vespene_used_in_progress_economy : Int
  vespene_used_in_progress_technology : Int
  minerals_used_current_army : Int
  minerals_used_current_economy : Int
  minerals_used_current_technology : Int
  vespene_used_current_army : Int
  vespene_used_current_economy : Int
  vespene_used_current_technology : Int
  minerals_lost_army : Int
  minerals_lost_economy : Int
  minerals_lost_technology : Int
  vespene_lost_army : Int
  vespene_lost_economy : Int
  vespene_lost_technology : Int
  minerals_killed_army : Int
  minerals_killed_economy : Int
  minerals_killed_technology : Int
  vespene_killed_army : Int
  vespene_killed_economy : Int
  vespene_killed_technology : Int
  food_used : Int
  food_made : Int
  minerals_used_active_forces : Int
  vespene_used_active_forces : Int
  minerals_friendly_fire_army : Int
  minerals_friendly_fire_economy : Int
  minerals_friendly_fire_technology : Int
  vespene_friendly_fire_army : Int
  vespene_friendly_fire_economy : Int
  vespene_friendly_fire_technology : Int
  ext_replay_loop : Int
  ext_replay_seconds : Nat
  ext_fs_id : Nat
  deriving DecidableEq, Repr

/-- `PlayerStatsFlatRow::new` (/repo/src/tracker_events/arrow_store/player_stats_flat_row.rs:65-117) -/
def StatsRow.new (fsId : Nat) (playerId : Int) (s : PlayerStats) (loop : Int) : StatsRow where
  player_id := playerId
  minerals_current := s.minerals_current
  vespene_current := s.vespene_current
  minerals_collection_rate := s.minerals_collection_rate
  vespene_collection_rate := s.vespene_collection_rate
  workers_active_count := s.workers_active_count
  minerals_used_in_progress_army := s.minerals_used_in_progress_army
  minerals_used_in_progress_economy := s.minerals_used_in_progress_economy
  minerals_used_in_progress_technology := s.minerals_used_in_progress_technology
  vespene_used_in_progress_army := s.vespene_used_in_progress_army
  vespene_used_in_progress_economy := s.vespene_used_in_progress_economy
  vespene_used_in_progress_technology := s.vespene_used_in_progress_technology
  minerals_used_current_army := s.minerals_used_current_army
  minerals_used_current_economy := s.minerals_used_current_economy
  minerals_used_current_technology := s.minerals_used_current_technology
  vespene_used_current_army := s.vespene_used_current_army
  vespene_used_current_economy := s.vespene_used_current_economy
  vespene_used_current_technology := s.vespene_used_current_technology
  minerals_lost_army := s.minerals_lost_army
  minerals_lost_economy := s.minerals_lost_economy
  minerals_lost_technology := s.minerals_lost_technology
  vespene_lost_army := s.vespene_lost_army
  vespene_lost_economy := s.vespene_lost_economy
  vespene_lost_technology := s.vespene_lost_technology
  minerals_killed_army := s.minerals_killed_army
  minerals_killed_economy := s.minerals_killed_economy
  minerals_killed_technology := s.minerals_killed_technology
  vespene_killed_army := s.vespene_killed_army
  vespene_killed_economy := s.vespene_killed_economy
  vespene_killed_technology := s.vespene_killed_technology
  food_used := s.food_used
  food_made := s.food_made
  minerals_used_active_forces := s.minerals_used_active_forces
  vespene_used_active_forces := s.vespene_used_active_forces
  minerals_friendly_fire_army := s.minerals_friendly_fire_army
  minerals_friendly_fire_economy := s.minerals_friendly_fire_economy
  minerals_friendly_fire_technology := s.minerals_friendly_fire_technology
  vespene_friendly_fire_army := s.vespene_friendly_fire_army
  vespene_friendly_fire_economy := s.vespene_friendly_fire_economy
  vespene_friendly_fire_technology := s.vespene_friendly_fire_technology
  ext_replay_loop := loop
  ext_replay_seconds := Time.trackerLoopToSeconds loop
  ext_fs_id := fsId

end S2

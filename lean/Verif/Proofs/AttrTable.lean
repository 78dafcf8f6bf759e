import Verif.Props.Classes
/-!
# The table of attributes, taken apart
-/
namespace Boxcars.Props
open Boxcars Spec

/-- The names of attributes, in order. -/
def attrProps : List String := [
  "AddedBallForceMultiplier", "AddedCarForceMultiplier", "AdditionalCarGroundBounceScaleXY",
  "AdditionalCarGroundBounceScaleZ", "AirActivateCount", "AirResistance", "AnonymizedName",
  "AppliedDamage", "AttachTime", "AttachedPickup", "BallHitSpinScale", "BallOwner", "Blocks",
  "BoostModifier", "BoostRestriction", "BotBannerProductID", "BotProductName", "BotSkill",
  "BreakTime", "CameraPitch", "CameraSettings", "CameraYaw", "Car", "CarDemolitions",
  "ClientFXInfectedType", "ClientLoadout", "ClientLoadoutOnline", "ClientLoadouts",
  "ClientLoadoutsOnline", "ClubColors", "ClubID", "ComponentOwner", "ConcurrentItemCount",
  "CurrentVoiceRoom", "CustomTeamName", "DamageCaused", "DamageIndex", "DamageState",
  "DeactivatedGoalIndex", "Difficulty", "DodgeImpulse", "DodgeRotationCompressed", "DodgeTorque",
  "DodgesRefreshedCounter", "DoubleJumpImpulse", "DrawScale", "EliminationOrder",
  "EndGameEpochTime", "EndGameWarningEpochTime", "EpicPUID", "FireCount", "FlipCarTime",
  "GameBallIndex", "GameClass", "GameEvent", "GameMode", "GameScore", "GameServerID", "GameTime",
  "GameWinner", "Grabs", "HealthMax", "HitTeamNum", "Hits", "InfectedStatus", "InputRestriction",
  "KeepUpPossessions", "KeepUpState", "KnockoutDeaths", "Knockouts", "LanMatchGUID",
  "LastTeamTouch", "LogoData", "MVP", "MagnusMinSpeed", "MashTime", "MatchAssists",
  "MatchBreakoutDamage", "MatchDemolishes", "MatchGUID", "MatchGoals", "MatchGuid", "MatchSaves",
  "MatchScore", "MatchSettings", "MatchShots", "MatchStartEpoch", "MatchTypeClass",
  "MatchWinner", "MaxScore", "MaxStunTime", "MaxTeamSize", "MaxTimeTillItem", "ModifiedNoise",
  "NewDedicatedServerIP", "NewReplicatedPickupData", "PRI", "PartyLeader", "PawnType",
  "PersistentCamera", "PickupInfo", "Ping", "Pitch", "PlayerHistoryKey", "PlayerHistoryValid",
  "PlayerID", "PlayerName", "PlayerReplicationInfo", "PossessionClears", "PossessionDenials",
  "PossessionSteals", "PrimaryTitle", "ProfileSettings", "RechargeDelay", "RechargeRate",
  "RemoteRole", "RemoteUserData", "RemoteViewPitch", "RepOrigSpeed", "RepStatTitles",
  "ReplicatedActive", "ReplicatedActivityTime", "ReplicatedAddedCarBounceScale",
  "ReplicatedBallGravityScale", "ReplicatedBallMaxLinearSpeedScale", "ReplicatedBallScale",
  "ReplicatedBeamBrokenValue", "ReplicatedBoost", "ReplicatedBoostAmount",
  "ReplicatedCarMaxLinearSpeedScale", "ReplicatedCarScale", "ReplicatedCountDownNumber",
  "ReplicatedDemolish", "ReplicatedDemolishExtended", "ReplicatedDemolishGoalExplosion",
  "ReplicatedDemolish_CustomFX", "ReplicatedExplosionData", "ReplicatedExplosionDataExtended",
  "ReplicatedGameEvent", "ReplicatedGameMutatorIndex", "ReplicatedGamePlaylist",
  "ReplicatedGameStateTimeRemaining", "ReplicatedGlobalOneShotSound", "ReplicatedImpulse",
  "ReplicatedMusicStinger", "ReplicatedOneShotSound", "ReplicatedOwner",
  "ReplicatedPhysMatOverride", "ReplicatedPickupData", "ReplicatedRBState",
  "ReplicatedRoundCountDownNumber", "ReplicatedScoredOnTeam", "ReplicatedServerPerformanceState",
  "ReplicatedServerRegion", "ReplicatedStatEvent", "ReplicatedStateChanged",
  "ReplicatedStateIndex", "ReplicatedStateName", "ReplicatedSteer", "ReplicatedThrottle",
  "ReplicatedTorqueInput", "ReplicatedWorldBounceScale",
  "ReplicatedWorstNetQualityBeyondLatency", "Reservations", "RichPresenceString", "Role",
  "Rotation", "RoundNum", "RumblePickups", "Score", "SecondaryTitle", "SecondsRemaining",
  "SelfDemolitions", "SeriesLength", "ServerName", "SkillTier", "SpawnDelaySeconds",
  "SpawnedBall", "SpectatorShortcut", "SteeringSensitivity", "StunTimeRemaining",
  "SubRulesArchetype", "TargetSpeed", "Targeted", "Team", "TeamNumChangeTimestamp", "TeamPaint",
  "TeleportCounter", "TimeTillItem", "Title", "TorqueScale", "TotalActiveBeams",
  "TotalGameBalls", "TotalGameTimePlayed", "TotalIdleTime", "TotalXP", "UniqueId",
  "UnlimitedBoostRefCount", "UsedAttackComponent", "Vehicle", "ViralItemActor", "WeldedBall",
  "WeldedInfo", "bActive", "bAdmin", "bAllowHonorDuels", "bAllowReadyUp", "bAllowTargetFind",
  "bAlwaysShowMatchTypeLabel", "bAnonymizeToOpponents", "bAnonymizeToTeammates",
  "bBallHasBeenHit", "bBallWelded", "bBlockActors", "bBot", "bBroken", "bCanVoteToForfeit",
  "bClubMatch", "bCollideActors", "bCollideWorld", "bDisableCrowdSound",
  "bDisableMutingOtherTeam", "bDisableQuickChat", "bDriving", "bFastAttachedMove", "bFlipRight",
  "bForfeit", "bFrozen", "bFullClubMatch", "bFullMatchWinnerDecided", "bGameStarted",
  "bGoalsEnabled", "bHasLeaveMatchPenalty", "bHasPostMatchCelebration", "bHidden", "bHit",
  "bIdleBanned", "bIgnoreSyncing", "bIsActiveMVP", "bIsBallBeamed", "bIsBotMatch", "bIsCrouched",
  "bIsDistracted", "bIsEliminated", "bIsInSplitScreen", "bIsSpectator",
  "bMatchCreatorAdminEnabled", "bMatchEnded", "bMatchIsOver", "bMatchMVP",
  "bMouseCameraToggleEnabled", "bNetOwner", "bNoBoost", "bNoContest", "bNoPickup",
  "bOnlineLoadoutSet", "bOnlineLoadoutsSet", "bOverTime", "bPodiumMode", "bPossessionEnabled",
  "bReady", "bReadyToPlay", "bReadyToStartGame", "bReceivedAnonymizationSettings",
  "bRechargeGroundOnly", "bReplayActor", "bReplicatedHandbrake", "bShouldSpawnGoalIndicators",
  "bShowIntroScene", "bTearOff", "bTimedOut", "bUnlimitedBoost", "bUnlimitedJumps",
  "bUnlimitedTime", "bUnlimitedTimeForDodge", "bUsedByMatinee", "bUsingBehindView",
  "bUsingItems", "bUsingSecondaryCamera", "bUsingSwivel", "bWaitingPlayer", "bWarnBallReset"]

/-- The classes that have attributes. -/
def attrOwners : List String := [
  "Engine.Actor", "Engine.GameReplicationInfo", "Engine.Pawn", "Engine.PlayerReplicationInfo",
  "Engine.ReplicatedActor_ORS", "Engine.TeamInfo", "ProjectX.GRI_X", "TAGame.Ball_Breakout_TA",
  "TAGame.Ball_Fire_TA", "TAGame.Ball_God_TA", "TAGame.Ball_Haunted_TA",
  "TAGame.Ball_Spawner_TA", "TAGame.Ball_TA", "TAGame.BallKeepUpComponent_TA",
  "TAGame.BreakOutActor_Platform_TA", "TAGame.CameraSettingsActor_TA", "TAGame.Cannon_TA",
  "TAGame.Car_KnockOut_TA", "TAGame.Car_TA", "TAGame.CarComponent_AirActivate_TA",
  "TAGame.CarComponent_Boost_TA", "TAGame.CarComponent_Dodge_KO_TA",
  "TAGame.CarComponent_Dodge_TA", "TAGame.CarComponent_DoubleJump_TA",
  "TAGame.CarComponent_FlipCar_TA", "TAGame.CarComponent_TA", "TAGame.CarComponent_Torque_TA",
  "TAGame.CrowdActor_TA", "TAGame.CrowdManager_TA", "TAGame.GameEvent_Soccar_TA",
  "TAGame.GameEvent_SoccarPrivate_TA", "TAGame.GameEvent_TA", "TAGame.GameEvent_Team_TA",
  "TAGame.GRI_TA", "TAGame.KeepUpIndicator_TA", "TAGame.MaxTimeWarningData_TA",
  "TAGame.PickupTimer_TA", "TAGame.PlayerStart_Platform_TA", "TAGame.PRI_KnockOut_TA",
  "TAGame.PRI_TA", "TAGame.RBActor_TA", "TAGame.RumblePickups_TA",
  "TAGame.SpecialPickup_BallFreeze_TA", "TAGame.SpecialPickup_BallVelcro_TA",
  "TAGame.SpecialPickup_Football_TA", "TAGame.SpecialPickup_Rugby_TA",
  "TAGame.SpecialPickup_Targeted_TA", "TAGame.Stunlock_TA", "TAGame.Team_Soccar_TA",
  "TAGame.Team_TA", "TAGame.Vehicle_TA", "TAGame.VehiclePickup_TA", "TAGame.ViralItemActor_TA"]

/-- The table of attributes: class, number of the name, type. -/
def attrParts : List (String × Nat × AttributeTag) := [
  ("Engine.Actor", 213, .boolean), ("Engine.Actor", 218, .boolean),
  ("Engine.Actor", 219, .boolean), ("Engine.Actor", 234, .boolean),
  ("Engine.Actor", 251, .boolean), ("Engine.Actor", 269, .boolean), ("Engine.Actor", 45, .float),
  ("Engine.Actor", 115, .enum), ("Engine.Actor", 165, .enum),
  ("Engine.Actor", 166, .rotationTag), ("Engine.GameReplicationInfo", 248, .boolean),
  ("Engine.GameReplicationInfo", 53, .activeActor), ("Engine.GameReplicationInfo", 174, .string),
  ("Engine.Pawn", 224, .boolean), ("Engine.Pawn", 241, .boolean), ("Engine.Pawn", 275, .boolean),
  ("Engine.Pawn", 61, .int), ("Engine.Pawn", 107, .activeActor), ("Engine.Pawn", 117, .byte),
  ("Engine.PlayerReplicationInfo", 204, .boolean),
  ("Engine.PlayerReplicationInfo", 214, .boolean),
  ("Engine.PlayerReplicationInfo", 245, .boolean),
  ("Engine.PlayerReplicationInfo", 261, .boolean),
  ("Engine.PlayerReplicationInfo", 270, .boolean),
  ("Engine.PlayerReplicationInfo", 280, .boolean), ("Engine.PlayerReplicationInfo", 101, .byte),
  ("Engine.PlayerReplicationInfo", 105, .int), ("Engine.PlayerReplicationInfo", 106, .string),
  ("Engine.PlayerReplicationInfo", 116, .string), ("Engine.PlayerReplicationInfo", 169, .int),
  ("Engine.PlayerReplicationInfo", 184, .activeActor),
  ("Engine.PlayerReplicationInfo", 196, .uniqueId),
  ("Engine.ReplicatedActor_ORS", 146, .activeActor), ("Engine.TeamInfo", 169, .int),
  ("ProjectX.GRI_X", 230, .boolean), ("ProjectX.GRI_X", 57, .qWordString),
  ("ProjectX.GRI_X", 81, .string), ("ProjectX.GRI_X", 79, .string),
  ("ProjectX.GRI_X", 139, .int), ("ProjectX.GRI_X", 140, .int), ("ProjectX.GRI_X", 153, .string),
  ("ProjectX.GRI_X", 163, .reservation), ("TAGame.Ball_Breakout_TA", 7, .appliedDamage),
  ("TAGame.Ball_Breakout_TA", 36, .int), ("TAGame.Ball_Breakout_TA", 71, .byte),
  ("TAGame.Ball_Fire_TA", 185, .float), ("TAGame.Ball_God_TA", 182, .float),
  ("TAGame.Ball_Haunted_TA", 239, .boolean), ("TAGame.Ball_Haunted_TA", 38, .byte),
  ("TAGame.Ball_Haunted_TA", 71, .byte), ("TAGame.Ball_Haunted_TA", 126, .byte),
  ("TAGame.Ball_Haunted_TA", 191, .byte), ("TAGame.Ball_Spawner_TA", 176, .float),
  ("TAGame.Ball_Spawner_TA", 177, .activeActor), ("TAGame.Ball_TA", 2, .float),
  ("TAGame.Ball_TA", 3, .float), ("TAGame.Ball_TA", 5, .location),
  ("TAGame.Ball_TA", 10, .float), ("TAGame.Ball_TA", 259, .boolean),
  ("TAGame.Ball_TA", 281, .boolean), ("TAGame.Ball_TA", 52, .int),
  ("TAGame.Ball_TA", 54, .activeActor), ("TAGame.Ball_TA", 62, .byte),
  ("TAGame.Ball_TA", 74, .float), ("TAGame.Ball_TA", 122, .float),
  ("TAGame.Ball_TA", 123, .float), ("TAGame.Ball_TA", 124, .float),
  ("TAGame.Ball_TA", 125, .float), ("TAGame.Ball_TA", 136, .explosion),
  ("TAGame.Ball_TA", 137, .extendedExplosion), ("TAGame.Ball_TA", 147, .activeActor),
  ("TAGame.Ball_TA", 161, .float), ("TAGame.BallKeepUpComponent_TA", 11, .activeActor),
  ("TAGame.BallKeepUpComponent_TA", 67, .byte), ("TAGame.BallKeepUpComponent_TA", 169, .int),
  ("TAGame.BreakOutActor_Platform_TA", 37, .damageState),
  ("TAGame.CameraSettingsActor_TA", 250, .boolean),
  ("TAGame.CameraSettingsActor_TA", 276, .boolean),
  ("TAGame.CameraSettingsActor_TA", 278, .boolean),
  ("TAGame.CameraSettingsActor_TA", 279, .boolean), ("TAGame.CameraSettingsActor_TA", 19, .byte),
  ("TAGame.CameraSettingsActor_TA", 21, .byte),
  ("TAGame.CameraSettingsActor_TA", 96, .activeActor),
  ("TAGame.CameraSettingsActor_TA", 112, .camSettings), ("TAGame.Cannon_TA", 50, .byte),
  ("TAGame.Cannon_TA", 102, .float), ("TAGame.Car_KnockOut_TA", 143, .impulse),
  ("TAGame.Car_KnockOut_TA", 155, .byte), ("TAGame.Car_KnockOut_TA", 157, .int),
  ("TAGame.Car_KnockOut_TA", 198, .activeActor), ("TAGame.Car_TA", 0, .float),
  ("TAGame.Car_TA", 1, .float), ("TAGame.Car_TA", 9, .activeActor),
  ("TAGame.Car_TA", 272, .boolean), ("TAGame.Car_TA", 274, .boolean),
  ("TAGame.Car_TA", 29, .clubColors), ("TAGame.Car_TA", 43, .int),
  ("TAGame.Car_TA", 129, .float), ("TAGame.Car_TA", 130, .float),
  ("TAGame.Car_TA", 135, .demolishFx), ("TAGame.Car_TA", 132, .demolish),
  ("TAGame.Car_TA", 133, .demolishExtended), ("TAGame.Car_TA", 134, .demolishFx),
  ("TAGame.Car_TA", 168, .activeActor), ("TAGame.Car_TA", 186, .teamPaint),
  ("TAGame.CarComponent_AirActivate_TA", 4, .int),
  ("TAGame.CarComponent_Boost_TA", 252, .boolean), ("TAGame.CarComponent_Boost_TA", 13, .float),
  ("TAGame.CarComponent_Boost_TA", 14, .byte), ("TAGame.CarComponent_Boost_TA", 264, .boolean),
  ("TAGame.CarComponent_Boost_TA", 271, .boolean), ("TAGame.CarComponent_Boost_TA", 113, .float),
  ("TAGame.CarComponent_Boost_TA", 114, .float),
  ("TAGame.CarComponent_Boost_TA", 127, .replicatedBoost),
  ("TAGame.CarComponent_Boost_TA", 128, .byte), ("TAGame.CarComponent_Boost_TA", 197, .int),
  ("TAGame.CarComponent_Dodge_KO_TA", 41, .int), ("TAGame.CarComponent_Dodge_TA", 40, .location),
  ("TAGame.CarComponent_Dodge_TA", 42, .location),
  ("TAGame.CarComponent_DoubleJump_TA", 44, .location),
  ("TAGame.CarComponent_FlipCar_TA", 225, .boolean),
  ("TAGame.CarComponent_FlipCar_TA", 51, .float), ("TAGame.CarComponent_TA", 120, .byte),
  ("TAGame.CarComponent_TA", 121, .float), ("TAGame.CarComponent_TA", 199, .activeActor),
  ("TAGame.CarComponent_Torque_TA", 160, .int), ("TAGame.CarComponent_Torque_TA", 190, .float),
  ("TAGame.CrowdActor_TA", 54, .activeActor), ("TAGame.CrowdActor_TA", 93, .float),
  ("TAGame.CrowdActor_TA", 131, .int), ("TAGame.CrowdActor_TA", 145, .activeActor),
  ("TAGame.CrowdActor_TA", 150, .int), ("TAGame.CrowdManager_TA", 54, .activeActor),
  ("TAGame.CrowdManager_TA", 142, .activeActor), ("TAGame.GameEvent_Soccar_TA", 205, .boolean),
  ("TAGame.GameEvent_Soccar_TA", 211, .boolean), ("TAGame.GameEvent_Soccar_TA", 217, .boolean),
  ("TAGame.GameEvent_Soccar_TA", 220, .boolean), ("TAGame.GameEvent_Soccar_TA", 228, .boolean),
  ("TAGame.GameEvent_Soccar_TA", 229, .boolean), ("TAGame.GameEvent_Soccar_TA", 231, .boolean),
  ("TAGame.GameEvent_Soccar_TA", 246, .boolean), ("TAGame.GameEvent_Soccar_TA", 247, .boolean),
  ("TAGame.GameEvent_Soccar_TA", 253, .boolean), ("TAGame.GameEvent_Soccar_TA", 257, .boolean),
  ("TAGame.GameEvent_Soccar_TA", 262, .boolean), ("TAGame.GameEvent_Soccar_TA", 267, .boolean),
  ("TAGame.GameEvent_Soccar_TA", 268, .boolean), ("TAGame.GameEvent_Soccar_TA", 273, .boolean),
  ("TAGame.GameEvent_Soccar_TA", 58, .int), ("TAGame.GameEvent_Soccar_TA", 59, .activeActor),
  ("TAGame.GameEvent_Soccar_TA", 88, .activeActor), ("TAGame.GameEvent_Soccar_TA", 89, .int),
  ("TAGame.GameEvent_Soccar_TA", 73, .activeActor),
  ("TAGame.GameEvent_Soccar_TA", 144, .musicStinger), ("TAGame.GameEvent_Soccar_TA", 151, .byte),
  ("TAGame.GameEvent_Soccar_TA", 152, .byte), ("TAGame.GameEvent_Soccar_TA", 154, .statEvent),
  ("TAGame.GameEvent_Soccar_TA", 167, .int), ("TAGame.GameEvent_Soccar_TA", 171, .int),
  ("TAGame.GameEvent_Soccar_TA", 173, .int), ("TAGame.GameEvent_Soccar_TA", 181, .activeActor),
  ("TAGame.GameEvent_Soccar_TA", 192, .int),
  ("TAGame.GameEvent_SoccarPrivate_TA", 84, .privateMatchSettings),
  ("TAGame.GameEvent_TA", 206, .boolean), ("TAGame.GameEvent_TA", 208, .boolean),
  ("TAGame.GameEvent_TA", 216, .boolean), ("TAGame.GameEvent_TA", 232, .boolean),
  ("TAGame.GameEvent_TA", 240, .boolean), ("TAGame.GameEvent_TA", 17, .int),
  ("TAGame.GameEvent_TA", 55, .gameMode), ("TAGame.GameEvent_TA", 86, .int64),
  ("TAGame.GameEvent_TA", 87, .activeActor), ("TAGame.GameEvent_TA", 141, .int),
  ("TAGame.GameEvent_TA", 150, .int), ("TAGame.GameEvent_TA", 156, .byte),
  ("TAGame.GameEvent_TA", 157, .int), ("TAGame.GameEvent_TA", 164, .string),
  ("TAGame.GameEvent_Team_TA", 221, .boolean), ("TAGame.GameEvent_Team_TA", 222, .boolean),
  ("TAGame.GameEvent_Team_TA", 226, .boolean), ("TAGame.GameEvent_Team_TA", 91, .int),
  ("TAGame.GRI_TA", 207, .boolean), ("TAGame.GRI_TA", 70, .string),
  ("TAGame.GRI_TA", 94, .string), ("TAGame.KeepUpIndicator_TA", 31, .activeActor),
  ("TAGame.MaxTimeWarningData_TA", 47, .int64), ("TAGame.MaxTimeWarningData_TA", 48, .int64),
  ("TAGame.PickupTimer_TA", 92, .int), ("TAGame.PickupTimer_TA", 188, .int),
  ("TAGame.PlayerStart_Platform_TA", 203, .boolean), ("TAGame.PRI_KnockOut_TA", 238, .boolean),
  ("TAGame.PRI_KnockOut_TA", 243, .boolean), ("TAGame.PRI_KnockOut_TA", 12, .int),
  ("TAGame.PRI_KnockOut_TA", 35, .int), ("TAGame.PRI_KnockOut_TA", 46, .int),
  ("TAGame.PRI_KnockOut_TA", 60, .int), ("TAGame.PRI_KnockOut_TA", 63, .int),
  ("TAGame.PRI_KnockOut_TA", 68, .int), ("TAGame.PRI_KnockOut_TA", 69, .int),
  ("TAGame.PRI_TA", 6, .string), ("TAGame.PRI_TA", 209, .boolean),
  ("TAGame.PRI_TA", 210, .boolean), ("TAGame.PRI_TA", 236, .boolean),
  ("TAGame.PRI_TA", 242, .boolean), ("TAGame.PRI_TA", 244, .boolean),
  ("TAGame.PRI_TA", 249, .boolean), ("TAGame.PRI_TA", 255, .boolean),
  ("TAGame.PRI_TA", 256, .boolean), ("TAGame.PRI_TA", 15, .int), ("TAGame.PRI_TA", 16, .int),
  ("TAGame.PRI_TA", 260, .boolean), ("TAGame.PRI_TA", 263, .boolean),
  ("TAGame.PRI_TA", 276, .boolean), ("TAGame.PRI_TA", 277, .boolean),
  ("TAGame.PRI_TA", 278, .boolean), ("TAGame.PRI_TA", 19, .byte),
  ("TAGame.PRI_TA", 20, .camSettings), ("TAGame.PRI_TA", 21, .byte), ("TAGame.PRI_TA", 23, .int),
  ("TAGame.PRI_TA", 25, .loadout), ("TAGame.PRI_TA", 26, .loadoutOnline),
  ("TAGame.PRI_TA", 27, .teamLoadout), ("TAGame.PRI_TA", 28, .loadoutsOnline),
  ("TAGame.PRI_TA", 30, .int64), ("TAGame.PRI_TA", 33, .string), ("TAGame.PRI_TA", 49, .string),
  ("TAGame.PRI_TA", 66, .int), ("TAGame.PRI_TA", 76, .int), ("TAGame.PRI_TA", 77, .int),
  ("TAGame.PRI_TA", 78, .int), ("TAGame.PRI_TA", 80, .int), ("TAGame.PRI_TA", 82, .int),
  ("TAGame.PRI_TA", 83, .int), ("TAGame.PRI_TA", 85, .int), ("TAGame.PRI_TA", 92, .int),
  ("TAGame.PRI_TA", 97, .partyLeader), ("TAGame.PRI_TA", 98, .byte),
  ("TAGame.PRI_TA", 99, .activeActor), ("TAGame.PRI_TA", 103, .playerHistoryKey),
  ("TAGame.PRI_TA", 104, .boolean), ("TAGame.PRI_TA", 108, .int), ("TAGame.PRI_TA", 109, .int),
  ("TAGame.PRI_TA", 110, .int), ("TAGame.PRI_TA", 111, .title),
  ("TAGame.PRI_TA", 138, .activeActor), ("TAGame.PRI_TA", 162, .byte),
  ("TAGame.PRI_TA", 119, .repStatTitle), ("TAGame.PRI_TA", 170, .title),
  ("TAGame.PRI_TA", 172, .int), ("TAGame.PRI_TA", 175, .flaggedByte),
  ("TAGame.PRI_TA", 178, .int), ("TAGame.PRI_TA", 179, .float), ("TAGame.PRI_TA", 188, .int),
  ("TAGame.PRI_TA", 189, .int), ("TAGame.PRI_TA", 193, .float), ("TAGame.PRI_TA", 194, .float),
  ("TAGame.PRI_TA", 195, .int), ("TAGame.PRI_TA", 200, .activeActor),
  ("TAGame.RBActor_TA", 227, .boolean), ("TAGame.RBActor_TA", 237, .boolean),
  ("TAGame.RBActor_TA", 265, .boolean), ("TAGame.RBActor_TA", 149, .rigidBody),
  ("TAGame.RBActor_TA", 187, .byte), ("TAGame.RBActor_TA", 202, .welded),
  ("TAGame.RumblePickups_TA", 9, .activeActor), ("TAGame.RumblePickups_TA", 32, .int),
  ("TAGame.RumblePickups_TA", 100, .pickupInfo),
  ("TAGame.SpecialPickup_BallFreeze_TA", 118, .float),
  ("TAGame.SpecialPickup_BallVelcro_TA", 8, .float),
  ("TAGame.SpecialPickup_BallVelcro_TA", 215, .boolean),
  ("TAGame.SpecialPickup_BallVelcro_TA", 235, .boolean),
  ("TAGame.SpecialPickup_BallVelcro_TA", 18, .float),
  ("TAGame.SpecialPickup_Football_TA", 201, .activeActor),
  ("TAGame.SpecialPickup_Rugby_TA", 212, .boolean),
  ("TAGame.SpecialPickup_Targeted_TA", 183, .activeActor),
  ("TAGame.Stunlock_TA", 22, .activeActor), ("TAGame.Stunlock_TA", 75, .float),
  ("TAGame.Stunlock_TA", 90, .float), ("TAGame.Stunlock_TA", 180, .float),
  ("TAGame.Team_Soccar_TA", 56, .int), ("TAGame.Team_TA", 29, .clubColors),
  ("TAGame.Team_TA", 30, .int64), ("TAGame.Team_TA", 34, .string), ("TAGame.Team_TA", 39, .int),
  ("TAGame.Team_TA", 54, .activeActor), ("TAGame.Team_TA", 72, .logoData),
  ("TAGame.Vehicle_TA", 223, .boolean), ("TAGame.Vehicle_TA", 233, .boolean),
  ("TAGame.Vehicle_TA", 258, .boolean), ("TAGame.Vehicle_TA", 266, .boolean),
  ("TAGame.Vehicle_TA", 65, .byte), ("TAGame.Vehicle_TA", 158, .byte),
  ("TAGame.Vehicle_TA", 159, .byte), ("TAGame.VehiclePickup_TA", 254, .boolean),
  ("TAGame.VehiclePickup_TA", 95, .pickupNew), ("TAGame.VehiclePickup_TA", 148, .pickup),
  ("TAGame.ViralItemActor_TA", 24, .byte), ("TAGame.ViralItemActor_TA", 64, .byte)]

/-- The name with a number. -/
def propName (i : Nat) : String := attrProps.getD i ""

set_option maxRecDepth 100000 in
theorem attributesTable_eq :
    attributesTable = attrParts.map (fun x => (x.1 ++ ":" ++ propName x.2.1, x.2.2)) := by
  decide +kernel

/-- Each element and the next are in relation. -/
def chained {α : Type} (r : α → α → Bool) : List α → Bool
  | a :: b :: l => r a b && chained r (b :: l)
  | _ => true

set_option maxRecDepth 100000 in
theorem props_sorted : chained (fun a b => decide (a < b)) attrProps = true := by decide +kernel


theorem chained_trans {α : Type} {r : α → α → Bool}
    (ht : ∀ a b c, r a b = true → r b c = true → r a c = true) :
    ∀ {l : List α}, chained r l = true → l.Pairwise (fun a b => r a b = true) := by
  intro l
  induction l with
  | nil => intro _; exact .nil
  | cons a l ih =>
    intro h
    cases l with
    | nil => exact List.pairwise_singleton _ _
    | cons b l =>
      rw [chained, Bool.and_eq_true] at h
      have hp := ih h.2
      refine List.pairwise_cons.2 ⟨fun x hx => ?_, hp⟩
      rcases List.mem_cons.1 hx with rfl | hx
      · exact h.1
      · exact ht _ _ _ h.1 ((List.pairwise_cons.1 hp).1 x hx)

theorem propName_inj {i j : Nat} (hi : i < 282) (hj : j < 282) (h : propName i = propName j) :
    i = j := by
  have hp := chained_trans (r := fun a b : String => decide (a < b))
    (fun a b c h1 h2 => decide_eq_true (String.lt_trans (of_decide_eq_true h1) (of_decide_eq_true h2)))
    props_sorted
  have hl : attrProps.length = 282 := by decide +kernel
  have e : ∀ k, (hk : k < 282) → propName k = attrProps[k]'(by omega) := by
    intro k hk
    unfold propName
    rw [List.getD_eq_getElem?_getD, List.getElem?_eq_getElem (by omega), Option.getD_some]
  rw [e i hi, e j hj] at h
  have key : ∀ a b (ha : a < 282) (hb : b < 282), a < b →
      attrProps[a]'(by omega) ≠ attrProps[b]'(by omega) := by
    intro a b ha hb hab he
    have := of_decide_eq_true ((List.pairwise_iff_getElem.1 hp) a b (by omega) (by omega) hab)
    rw [he] at this
    exact String.lt_irrefl _ this
  rcases Nat.lt_trichotomy i j with g | g | g
  · exact absurd h (key i j hi hj g)
  · exact g
  · exact absurd h.symm (key j i hj hi g)

end Boxcars.Props

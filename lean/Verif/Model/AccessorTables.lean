import Verif.Model.Accessors

/-! # The accessors of the enums over forks

Transcribed by a script from the generated files of `ethereum-consensus/src/types/`: of every function
its name, its signature and the arms of its `match self`. `f_mut` is listed as `f` with `exclusive`.
The comment after each accessor gives its lines. -/

namespace Verif.Accessors

open Json

/-- `BeaconBlock`, `types/beacon_block.rs:137-538` -/
def beaconBlock : ForkType where
  name := "BeaconBlock"
  kind := .owned
  base := Json.BeaconBlock
  accessors := [
    ⟨"phase0", false, true, [(some .Phase0, .all), (none, .none)]⟩, -- 137-153
    ⟨"phase0", true, true, [(some .Phase0, .all), (none, .none)]⟩, -- 154-170
    ⟨"altair", false, true, [(some .Altair, .all), (none, .none)]⟩, -- 171-188
    ⟨"altair", true, true, [(some .Altair, .all), (none, .none)]⟩, -- 189-206
    ⟨"bellatrix", false, true, [(some .Bellatrix, .all), (none, .none)]⟩, -- 207-228
    ⟨"bellatrix", true, true, [(some .Bellatrix, .all), (none, .none)]⟩, -- 229-250
    ⟨"capella", false, true, [(some .Capella, .all), (none, .none)]⟩, -- 251-274
    ⟨"capella", true, true, [(some .Capella, .all), (none, .none)]⟩, -- 275-298
    ⟨"deneb", false, true, [(some .Deneb, .all), (none, .none)]⟩, -- 299-323
    ⟨"deneb", true, true, [(some .Deneb, .all), (none, .none)]⟩, -- 324-348
    ⟨"version", false, false, [(some .Phase0, .version .Phase0),
      (some .Altair, .version .Altair), (some .Bellatrix, .version .Bellatrix),
      (some .Capella, .version .Capella), (some .Deneb, .version .Deneb)]⟩, -- 349-357
    ⟨"slot", false, false, [(some .Phase0, .field "slot"), (some .Altair, .field "slot"),
      (some .Bellatrix, .field "slot"), (some .Capella, .field "slot"),
      (some .Deneb, .field "slot")]⟩, -- 358-366
    ⟨"slot", true, false, [(some .Phase0, .field "slot"), (some .Altair, .field "slot"),
      (some .Bellatrix, .field "slot"), (some .Capella, .field "slot"),
      (some .Deneb, .field "slot")]⟩, -- 367-375
    ⟨"proposer_index", false, false, [(some .Phase0, .field "proposer_index"),
      (some .Altair, .field "proposer_index"), (some .Bellatrix, .field "proposer_index"),
      (some .Capella, .field "proposer_index"), (some .Deneb, .field "proposer_index")]⟩, -- 376-384
    ⟨"proposer_index", true, false, [(some .Phase0, .field "proposer_index"),
      (some .Altair, .field "proposer_index"), (some .Bellatrix, .field "proposer_index"),
      (some .Capella, .field "proposer_index"), (some .Deneb, .field "proposer_index")]⟩, -- 385-393
    ⟨"parent_root", false, false, [(some .Phase0, .field "parent_root"),
      (some .Altair, .field "parent_root"), (some .Bellatrix, .field "parent_root"),
      (some .Capella, .field "parent_root"), (some .Deneb, .field "parent_root")]⟩, -- 394-402
    ⟨"parent_root", true, false, [(some .Phase0, .field "parent_root"),
      (some .Altair, .field "parent_root"), (some .Bellatrix, .field "parent_root"),
      (some .Capella, .field "parent_root"), (some .Deneb, .field "parent_root")]⟩, -- 403-411
    ⟨"state_root", false, false, [(some .Phase0, .field "state_root"),
      (some .Altair, .field "state_root"), (some .Bellatrix, .field "state_root"),
      (some .Capella, .field "state_root"), (some .Deneb, .field "state_root")]⟩, -- 412-420
    ⟨"state_root", true, false, [(some .Phase0, .field "state_root"),
      (some .Altair, .field "state_root"), (some .Bellatrix, .field "state_root"),
      (some .Capella, .field "state_root"), (some .Deneb, .field "state_root")]⟩, -- 421-429
    ⟨"body", false, false, [(some .Phase0, .view "body" "BeaconBlockBodyRef"),
      (some .Altair, .view "body" "BeaconBlockBodyRef"),
      (some .Bellatrix, .view "body" "BeaconBlockBodyRef"),
      (some .Capella, .view "body" "BeaconBlockBodyRef"),
      (some .Deneb, .view "body" "BeaconBlockBodyRef")]⟩, -- 430-455
    ⟨"body", true, false, [(some .Phase0, .view "body" "BeaconBlockBodyRefMut"),
      (some .Altair, .view "body" "BeaconBlockBodyRefMut"),
      (some .Bellatrix, .view "body" "BeaconBlockBodyRefMut"),
      (some .Capella, .view "body" "BeaconBlockBodyRefMut"),
      (some .Deneb, .view "body" "BeaconBlockBodyRefMut")]⟩] -- 456-481
  froms := []

/-- `BeaconBlockRef`, `types/beacon_block.rs:665-1173` -/
def beaconBlockRef : ForkType where
  name := "BeaconBlockRef"
  kind := .shared
  base := Json.BeaconBlock
  accessors := [
    ⟨"phase0", false, true, [(some .Phase0, .all), (none, .none)]⟩, -- 665-681
    ⟨"altair", false, true, [(some .Altair, .all), (none, .none)]⟩, -- 682-699
    ⟨"bellatrix", false, true, [(some .Bellatrix, .all), (none, .none)]⟩, -- 700-721
    ⟨"capella", false, true, [(some .Capella, .all), (none, .none)]⟩, -- 722-745
    ⟨"deneb", false, true, [(some .Deneb, .all), (none, .none)]⟩, -- 746-770
    ⟨"version", false, false, [(some .Phase0, .version .Phase0),
      (some .Altair, .version .Altair), (some .Bellatrix, .version .Bellatrix),
      (some .Capella, .version .Capella), (some .Deneb, .version .Deneb)]⟩, -- 771-779
    ⟨"slot", false, false, [(some .Phase0, .field "slot"), (some .Altair, .field "slot"),
      (some .Bellatrix, .field "slot"), (some .Capella, .field "slot"),
      (some .Deneb, .field "slot")]⟩, -- 780-788
    ⟨"proposer_index", false, false, [(some .Phase0, .field "proposer_index"),
      (some .Altair, .field "proposer_index"), (some .Bellatrix, .field "proposer_index"),
      (some .Capella, .field "proposer_index"), (some .Deneb, .field "proposer_index")]⟩, -- 789-797
    ⟨"parent_root", false, false, [(some .Phase0, .field "parent_root"),
      (some .Altair, .field "parent_root"), (some .Bellatrix, .field "parent_root"),
      (some .Capella, .field "parent_root"), (some .Deneb, .field "parent_root")]⟩, -- 798-806
    ⟨"state_root", false, false, [(some .Phase0, .field "state_root"),
      (some .Altair, .field "state_root"), (some .Bellatrix, .field "state_root"),
      (some .Capella, .field "state_root"), (some .Deneb, .field "state_root")]⟩, -- 807-815
    ⟨"body", false, false, [(some .Phase0, .view "body" "BeaconBlockBodyRef"),
      (some .Altair, .view "body" "BeaconBlockBodyRef"),
      (some .Bellatrix, .view "body" "BeaconBlockBodyRef"),
      (some .Capella, .view "body" "BeaconBlockBodyRef"),
      (some .Deneb, .view "body" "BeaconBlockBodyRef")]⟩] -- 816-841
  froms := [
    (.Phase0, .Phase0), -- 888-899
    (.Altair, .Altair), -- 947-959
    (.Bellatrix, .Bellatrix), -- 1011-1027
    (.Capella, .Capella), -- 1081-1099
    (.Deneb, .Deneb)] -- 1154-1173

/-- `BeaconBlockRefMut`, `types/beacon_block.rs:1300-1976` -/
def beaconBlockRefMut : ForkType where
  name := "BeaconBlockRefMut"
  kind := .exclusive
  base := Json.BeaconBlock
  accessors := [
    ⟨"phase0", false, true, [(some .Phase0, .all), (none, .none)]⟩, -- 1300-1316
    ⟨"phase0", true, true, [(some .Phase0, .all), (none, .none)]⟩, -- 1317-1333
    ⟨"altair", false, true, [(some .Altair, .all), (none, .none)]⟩, -- 1334-1351
    ⟨"altair", true, true, [(some .Altair, .all), (none, .none)]⟩, -- 1352-1369
    ⟨"bellatrix", false, true, [(some .Bellatrix, .all), (none, .none)]⟩, -- 1370-1391
    ⟨"bellatrix", true, true, [(some .Bellatrix, .all), (none, .none)]⟩, -- 1392-1413
    ⟨"capella", false, true, [(some .Capella, .all), (none, .none)]⟩, -- 1414-1437
    ⟨"capella", true, true, [(some .Capella, .all), (none, .none)]⟩, -- 1438-1461
    ⟨"deneb", false, true, [(some .Deneb, .all), (none, .none)]⟩, -- 1462-1486
    ⟨"deneb", true, true, [(some .Deneb, .all), (none, .none)]⟩, -- 1487-1511
    ⟨"version", false, false, [(some .Phase0, .version .Phase0),
      (some .Altair, .version .Altair), (some .Bellatrix, .version .Bellatrix),
      (some .Capella, .version .Capella), (some .Deneb, .version .Deneb)]⟩, -- 1512-1520
    ⟨"slot", false, false, [(some .Phase0, .field "slot"), (some .Altair, .field "slot"),
      (some .Bellatrix, .field "slot"), (some .Capella, .field "slot"),
      (some .Deneb, .field "slot")]⟩, -- 1521-1529
    ⟨"slot", true, false, [(some .Phase0, .field "slot"), (some .Altair, .field "slot"),
      (some .Bellatrix, .field "slot"), (some .Capella, .field "slot"),
      (some .Deneb, .field "slot")]⟩, -- 1530-1538
    ⟨"proposer_index", false, false, [(some .Phase0, .field "proposer_index"),
      (some .Altair, .field "proposer_index"), (some .Bellatrix, .field "proposer_index"),
      (some .Capella, .field "proposer_index"), (some .Deneb, .field "proposer_index")]⟩, -- 1539-1547
    ⟨"proposer_index", true, false, [(some .Phase0, .field "proposer_index"),
      (some .Altair, .field "proposer_index"), (some .Bellatrix, .field "proposer_index"),
      (some .Capella, .field "proposer_index"), (some .Deneb, .field "proposer_index")]⟩, -- 1548-1556
    ⟨"parent_root", false, false, [(some .Phase0, .field "parent_root"),
      (some .Altair, .field "parent_root"), (some .Bellatrix, .field "parent_root"),
      (some .Capella, .field "parent_root"), (some .Deneb, .field "parent_root")]⟩, -- 1557-1565
    ⟨"parent_root", true, false, [(some .Phase0, .field "parent_root"),
      (some .Altair, .field "parent_root"), (some .Bellatrix, .field "parent_root"),
      (some .Capella, .field "parent_root"), (some .Deneb, .field "parent_root")]⟩, -- 1566-1574
    ⟨"state_root", false, false, [(some .Phase0, .field "state_root"),
      (some .Altair, .field "state_root"), (some .Bellatrix, .field "state_root"),
      (some .Capella, .field "state_root"), (some .Deneb, .field "state_root")]⟩, -- 1575-1583
    ⟨"state_root", true, false, [(some .Phase0, .field "state_root"),
      (some .Altair, .field "state_root"), (some .Bellatrix, .field "state_root"),
      (some .Capella, .field "state_root"), (some .Deneb, .field "state_root")]⟩, -- 1584-1592
    ⟨"body", false, false, [(some .Phase0, .view "body" "BeaconBlockBodyRef"),
      (some .Altair, .view "body" "BeaconBlockBodyRef"),
      (some .Bellatrix, .view "body" "BeaconBlockBodyRef"),
      (some .Capella, .view "body" "BeaconBlockBodyRef"),
      (some .Deneb, .view "body" "BeaconBlockBodyRef")]⟩, -- 1593-1618
    ⟨"body", true, false, [(some .Phase0, .view "body" "BeaconBlockBodyRefMut"),
      (some .Altair, .view "body" "BeaconBlockBodyRefMut"),
      (some .Bellatrix, .view "body" "BeaconBlockBodyRefMut"),
      (some .Capella, .view "body" "BeaconBlockBodyRefMut"),
      (some .Deneb, .view "body" "BeaconBlockBodyRefMut")]⟩] -- 1619-1644
  froms := [
    (.Phase0, .Phase0), -- 1691-1702
    (.Altair, .Altair), -- 1750-1762
    (.Bellatrix, .Bellatrix), -- 1814-1830
    (.Capella, .Capella), -- 1884-1902
    (.Deneb, .Deneb)] -- 1957-1976

/-- `BeaconBlockBody`, `types/beacon_block_body.rs:141-672` -/
def beaconBlockBody : ForkType where
  name := "BeaconBlockBody"
  kind := .owned
  base := Json.BeaconBlockBody
  accessors := [
    ⟨"phase0", false, true, [(some .Phase0, .all), (none, .none)]⟩, -- 141-157
    ⟨"phase0", true, true, [(some .Phase0, .all), (none, .none)]⟩, -- 158-174
    ⟨"altair", false, true, [(some .Altair, .all), (none, .none)]⟩, -- 175-192
    ⟨"altair", true, true, [(some .Altair, .all), (none, .none)]⟩, -- 193-210
    ⟨"bellatrix", false, true, [(some .Bellatrix, .all), (none, .none)]⟩, -- 211-232
    ⟨"bellatrix", true, true, [(some .Bellatrix, .all), (none, .none)]⟩, -- 233-254
    ⟨"capella", false, true, [(some .Capella, .all), (none, .none)]⟩, -- 255-278
    ⟨"capella", true, true, [(some .Capella, .all), (none, .none)]⟩, -- 279-302
    ⟨"deneb", false, true, [(some .Deneb, .all), (none, .none)]⟩, -- 303-327
    ⟨"deneb", true, true, [(some .Deneb, .all), (none, .none)]⟩, -- 328-352
    ⟨"version", false, false, [(some .Phase0, .version .Phase0),
      (some .Altair, .version .Altair), (some .Bellatrix, .version .Bellatrix),
      (some .Capella, .version .Capella), (some .Deneb, .version .Deneb)]⟩, -- 353-361
    ⟨"randao_reveal", false, false, [(some .Phase0, .field "randao_reveal"),
      (some .Altair, .field "randao_reveal"), (some .Bellatrix, .field "randao_reveal"),
      (some .Capella, .field "randao_reveal"), (some .Deneb, .field "randao_reveal")]⟩, -- 362-370
    ⟨"randao_reveal", true, false, [(some .Phase0, .field "randao_reveal"),
      (some .Altair, .field "randao_reveal"), (some .Bellatrix, .field "randao_reveal"),
      (some .Capella, .field "randao_reveal"), (some .Deneb, .field "randao_reveal")]⟩, -- 371-379
    ⟨"eth1_data", false, false, [(some .Phase0, .field "eth1_data"),
      (some .Altair, .field "eth1_data"), (some .Bellatrix, .field "eth1_data"),
      (some .Capella, .field "eth1_data"), (some .Deneb, .field "eth1_data")]⟩, -- 380-388
    ⟨"eth1_data", true, false, [(some .Phase0, .field "eth1_data"),
      (some .Altair, .field "eth1_data"), (some .Bellatrix, .field "eth1_data"),
      (some .Capella, .field "eth1_data"), (some .Deneb, .field "eth1_data")]⟩, -- 389-397
    ⟨"graffiti", false, false, [(some .Phase0, .field "graffiti"),
      (some .Altair, .field "graffiti"), (some .Bellatrix, .field "graffiti"),
      (some .Capella, .field "graffiti"), (some .Deneb, .field "graffiti")]⟩, -- 398-406
    ⟨"graffiti", true, false, [(some .Phase0, .field "graffiti"),
      (some .Altair, .field "graffiti"), (some .Bellatrix, .field "graffiti"),
      (some .Capella, .field "graffiti"), (some .Deneb, .field "graffiti")]⟩, -- 407-415
    ⟨"proposer_slashings", false, false, [(some .Phase0, .field "proposer_slashings"),
      (some .Altair, .field "proposer_slashings"),
      (some .Bellatrix, .field "proposer_slashings"),
      (some .Capella, .field "proposer_slashings"), (some .Deneb, .field "proposer_slashings")]⟩, -- 416-424
    ⟨"proposer_slashings", true, false, [(some .Phase0, .field "proposer_slashings"),
      (some .Altair, .field "proposer_slashings"),
      (some .Bellatrix, .field "proposer_slashings"),
      (some .Capella, .field "proposer_slashings"), (some .Deneb, .field "proposer_slashings")]⟩, -- 425-435
    ⟨"attester_slashings", false, false, [(some .Phase0, .field "attester_slashings"),
      (some .Altair, .field "attester_slashings"),
      (some .Bellatrix, .field "attester_slashings"),
      (some .Capella, .field "attester_slashings"), (some .Deneb, .field "attester_slashings")]⟩, -- 436-446
    ⟨"attester_slashings", true, false, [(some .Phase0, .field "attester_slashings"),
      (some .Altair, .field "attester_slashings"),
      (some .Bellatrix, .field "attester_slashings"),
      (some .Capella, .field "attester_slashings"), (some .Deneb, .field "attester_slashings")]⟩, -- 447-457
    ⟨"attestations", false, false, [(some .Phase0, .field "attestations"),
      (some .Altair, .field "attestations"), (some .Bellatrix, .field "attestations"),
      (some .Capella, .field "attestations"), (some .Deneb, .field "attestations")]⟩, -- 458-468
    ⟨"attestations", true, false, [(some .Phase0, .field "attestations"),
      (some .Altair, .field "attestations"), (some .Bellatrix, .field "attestations"),
      (some .Capella, .field "attestations"), (some .Deneb, .field "attestations")]⟩, -- 469-479
    ⟨"deposits", false, false, [(some .Phase0, .field "deposits"),
      (some .Altair, .field "deposits"), (some .Bellatrix, .field "deposits"),
      (some .Capella, .field "deposits"), (some .Deneb, .field "deposits")]⟩, -- 480-488
    ⟨"deposits", true, false, [(some .Phase0, .field "deposits"),
      (some .Altair, .field "deposits"), (some .Bellatrix, .field "deposits"),
      (some .Capella, .field "deposits"), (some .Deneb, .field "deposits")]⟩, -- 489-497
    ⟨"voluntary_exits", false, false, [(some .Phase0, .field "voluntary_exits"),
      (some .Altair, .field "voluntary_exits"), (some .Bellatrix, .field "voluntary_exits"),
      (some .Capella, .field "voluntary_exits"), (some .Deneb, .field "voluntary_exits")]⟩, -- 498-506
    ⟨"voluntary_exits", true, false, [(some .Phase0, .field "voluntary_exits"),
      (some .Altair, .field "voluntary_exits"), (some .Bellatrix, .field "voluntary_exits"),
      (some .Capella, .field "voluntary_exits"), (some .Deneb, .field "voluntary_exits")]⟩, -- 507-515
    ⟨"sync_aggregate", false, true, [(some .Phase0, .none),
      (some .Altair, .field "sync_aggregate"), (some .Bellatrix, .field "sync_aggregate"),
      (some .Capella, .field "sync_aggregate"), (some .Deneb, .field "sync_aggregate")]⟩, -- 516-524
    ⟨"sync_aggregate", true, true, [(some .Phase0, .none),
      (some .Altair, .field "sync_aggregate"), (some .Bellatrix, .field "sync_aggregate"),
      (some .Capella, .field "sync_aggregate"), (some .Deneb, .field "sync_aggregate")]⟩, -- 525-533
    ⟨"execution_payload", false, true, [(some .Phase0, .none), (some .Altair, .none),
      (some .Bellatrix, .view "execution_payload" "ExecutionPayloadRef"),
      (some .Capella, .view "execution_payload" "ExecutionPayloadRef"),
      (some .Deneb, .view "execution_payload" "ExecutionPayloadRef")]⟩, -- 534-552
    ⟨"execution_payload", true, true, [(some .Phase0, .none), (some .Altair, .none),
      (some .Bellatrix, .view "execution_payload" "ExecutionPayloadRefMut"),
      (some .Capella, .view "execution_payload" "ExecutionPayloadRefMut"),
      (some .Deneb, .view "execution_payload" "ExecutionPayloadRefMut")]⟩, -- 553-571
    ⟨"bls_to_execution_changes", false, true, [(some .Phase0, .none), (some .Altair, .none),
      (some .Bellatrix, .none), (some .Capella, .field "bls_to_execution_changes"),
      (some .Deneb, .field "bls_to_execution_changes")]⟩, -- 572-582
    ⟨"bls_to_execution_changes", true, true, [(some .Phase0, .none), (some .Altair, .none),
      (some .Bellatrix, .none), (some .Capella, .field "bls_to_execution_changes"),
      (some .Deneb, .field "bls_to_execution_changes")]⟩, -- 583-593
    ⟨"blob_kzg_commitments", false, true, [(some .Phase0, .none), (some .Altair, .none),
      (some .Bellatrix, .none), (some .Capella, .none),
      (some .Deneb, .field "blob_kzg_commitments")]⟩, -- 594-604
    ⟨"blob_kzg_commitments", true, true, [(some .Phase0, .none), (some .Altair, .none),
      (some .Bellatrix, .none), (some .Capella, .none),
      (some .Deneb, .field "blob_kzg_commitments")]⟩] -- 605-615
  froms := []

/-- `BeaconBlockBodyRef`, `types/beacon_block_body.rs:799-1371` -/
def beaconBlockBodyRef : ForkType where
  name := "BeaconBlockBodyRef"
  kind := .shared
  base := Json.BeaconBlockBody
  accessors := [
    ⟨"phase0", false, true, [(some .Phase0, .all), (none, .none)]⟩, -- 799-815
    ⟨"altair", false, true, [(some .Altair, .all), (none, .none)]⟩, -- 816-833
    ⟨"bellatrix", false, true, [(some .Bellatrix, .all), (none, .none)]⟩, -- 834-855
    ⟨"capella", false, true, [(some .Capella, .all), (none, .none)]⟩, -- 856-879
    ⟨"deneb", false, true, [(some .Deneb, .all), (none, .none)]⟩, -- 880-904
    ⟨"version", false, false, [(some .Phase0, .version .Phase0),
      (some .Altair, .version .Altair), (some .Bellatrix, .version .Bellatrix),
      (some .Capella, .version .Capella), (some .Deneb, .version .Deneb)]⟩, -- 905-913
    ⟨"randao_reveal", false, false, [(some .Phase0, .field "randao_reveal"),
      (some .Altair, .field "randao_reveal"), (some .Bellatrix, .field "randao_reveal"),
      (some .Capella, .field "randao_reveal"), (some .Deneb, .field "randao_reveal")]⟩, -- 914-922
    ⟨"eth1_data", false, false, [(some .Phase0, .field "eth1_data"),
      (some .Altair, .field "eth1_data"), (some .Bellatrix, .field "eth1_data"),
      (some .Capella, .field "eth1_data"), (some .Deneb, .field "eth1_data")]⟩, -- 923-931
    ⟨"graffiti", false, false, [(some .Phase0, .field "graffiti"),
      (some .Altair, .field "graffiti"), (some .Bellatrix, .field "graffiti"),
      (some .Capella, .field "graffiti"), (some .Deneb, .field "graffiti")]⟩, -- 932-940
    ⟨"proposer_slashings", false, false, [(some .Phase0, .field "proposer_slashings"),
      (some .Altair, .field "proposer_slashings"),
      (some .Bellatrix, .field "proposer_slashings"),
      (some .Capella, .field "proposer_slashings"), (some .Deneb, .field "proposer_slashings")]⟩, -- 941-949
    ⟨"attester_slashings", false, false, [(some .Phase0, .field "attester_slashings"),
      (some .Altair, .field "attester_slashings"),
      (some .Bellatrix, .field "attester_slashings"),
      (some .Capella, .field "attester_slashings"), (some .Deneb, .field "attester_slashings")]⟩, -- 950-960
    ⟨"attestations", false, false, [(some .Phase0, .field "attestations"),
      (some .Altair, .field "attestations"), (some .Bellatrix, .field "attestations"),
      (some .Capella, .field "attestations"), (some .Deneb, .field "attestations")]⟩, -- 961-971
    ⟨"deposits", false, false, [(some .Phase0, .field "deposits"),
      (some .Altair, .field "deposits"), (some .Bellatrix, .field "deposits"),
      (some .Capella, .field "deposits"), (some .Deneb, .field "deposits")]⟩, -- 972-980
    ⟨"voluntary_exits", false, false, [(some .Phase0, .field "voluntary_exits"),
      (some .Altair, .field "voluntary_exits"), (some .Bellatrix, .field "voluntary_exits"),
      (some .Capella, .field "voluntary_exits"), (some .Deneb, .field "voluntary_exits")]⟩, -- 981-989
    ⟨"sync_aggregate", false, true, [(some .Phase0, .none),
      (some .Altair, .field "sync_aggregate"), (some .Bellatrix, .field "sync_aggregate"),
      (some .Capella, .field "sync_aggregate"), (some .Deneb, .field "sync_aggregate")]⟩, -- 990-998
    ⟨"execution_payload", false, true, [(some .Phase0, .none), (some .Altair, .none),
      (some .Bellatrix, .view "execution_payload" "ExecutionPayloadRef"),
      (some .Capella, .view "execution_payload" "ExecutionPayloadRef"),
      (some .Deneb, .view "execution_payload" "ExecutionPayloadRef")]⟩, -- 999-1017
    ⟨"bls_to_execution_changes", false, true, [(some .Phase0, .none), (some .Altair, .none),
      (some .Bellatrix, .none), (some .Capella, .field "bls_to_execution_changes"),
      (some .Deneb, .field "bls_to_execution_changes")]⟩, -- 1018-1028
    ⟨"blob_kzg_commitments", false, true, [(some .Phase0, .none), (some .Altair, .none),
      (some .Bellatrix, .none), (some .Capella, .none),
      (some .Deneb, .field "blob_kzg_commitments")]⟩] -- 1029-1039
  froms := [
    (.Phase0, .Phase0), -- 1086-1097
    (.Altair, .Altair), -- 1145-1157
    (.Bellatrix, .Bellatrix), -- 1209-1225
    (.Capella, .Capella), -- 1279-1297
    (.Deneb, .Deneb)] -- 1352-1371

/-- `BeaconBlockBodyRefMut`, `types/beacon_block_body.rs:1498-2304` -/
def beaconBlockBodyRefMut : ForkType where
  name := "BeaconBlockBodyRefMut"
  kind := .exclusive
  base := Json.BeaconBlockBody
  accessors := [
    ⟨"phase0", false, true, [(some .Phase0, .all), (none, .none)]⟩, -- 1498-1514
    ⟨"phase0", true, true, [(some .Phase0, .all), (none, .none)]⟩, -- 1515-1531
    ⟨"altair", false, true, [(some .Altair, .all), (none, .none)]⟩, -- 1532-1549
    ⟨"altair", true, true, [(some .Altair, .all), (none, .none)]⟩, -- 1550-1567
    ⟨"bellatrix", false, true, [(some .Bellatrix, .all), (none, .none)]⟩, -- 1568-1589
    ⟨"bellatrix", true, true, [(some .Bellatrix, .all), (none, .none)]⟩, -- 1590-1611
    ⟨"capella", false, true, [(some .Capella, .all), (none, .none)]⟩, -- 1612-1635
    ⟨"capella", true, true, [(some .Capella, .all), (none, .none)]⟩, -- 1636-1659
    ⟨"deneb", false, true, [(some .Deneb, .all), (none, .none)]⟩, -- 1660-1684
    ⟨"deneb", true, true, [(some .Deneb, .all), (none, .none)]⟩, -- 1685-1709
    ⟨"version", false, false, [(some .Phase0, .version .Phase0),
      (some .Altair, .version .Altair), (some .Bellatrix, .version .Bellatrix),
      (some .Capella, .version .Capella), (some .Deneb, .version .Deneb)]⟩, -- 1710-1718
    ⟨"randao_reveal", false, false, [(some .Phase0, .field "randao_reveal"),
      (some .Altair, .field "randao_reveal"), (some .Bellatrix, .field "randao_reveal"),
      (some .Capella, .field "randao_reveal"), (some .Deneb, .field "randao_reveal")]⟩, -- 1719-1727
    ⟨"randao_reveal", true, false, [(some .Phase0, .field "randao_reveal"),
      (some .Altair, .field "randao_reveal"), (some .Bellatrix, .field "randao_reveal"),
      (some .Capella, .field "randao_reveal"), (some .Deneb, .field "randao_reveal")]⟩, -- 1728-1736
    ⟨"eth1_data", false, false, [(some .Phase0, .field "eth1_data"),
      (some .Altair, .field "eth1_data"), (some .Bellatrix, .field "eth1_data"),
      (some .Capella, .field "eth1_data"), (some .Deneb, .field "eth1_data")]⟩, -- 1737-1745
    ⟨"eth1_data", true, false, [(some .Phase0, .field "eth1_data"),
      (some .Altair, .field "eth1_data"), (some .Bellatrix, .field "eth1_data"),
      (some .Capella, .field "eth1_data"), (some .Deneb, .field "eth1_data")]⟩, -- 1746-1754
    ⟨"graffiti", false, false, [(some .Phase0, .field "graffiti"),
      (some .Altair, .field "graffiti"), (some .Bellatrix, .field "graffiti"),
      (some .Capella, .field "graffiti"), (some .Deneb, .field "graffiti")]⟩, -- 1755-1763
    ⟨"graffiti", true, false, [(some .Phase0, .field "graffiti"),
      (some .Altair, .field "graffiti"), (some .Bellatrix, .field "graffiti"),
      (some .Capella, .field "graffiti"), (some .Deneb, .field "graffiti")]⟩, -- 1764-1772
    ⟨"proposer_slashings", false, false, [(some .Phase0, .field "proposer_slashings"),
      (some .Altair, .field "proposer_slashings"),
      (some .Bellatrix, .field "proposer_slashings"),
      (some .Capella, .field "proposer_slashings"), (some .Deneb, .field "proposer_slashings")]⟩, -- 1773-1781
    ⟨"proposer_slashings", true, false, [(some .Phase0, .field "proposer_slashings"),
      (some .Altair, .field "proposer_slashings"),
      (some .Bellatrix, .field "proposer_slashings"),
      (some .Capella, .field "proposer_slashings"), (some .Deneb, .field "proposer_slashings")]⟩, -- 1782-1792
    ⟨"attester_slashings", false, false, [(some .Phase0, .field "attester_slashings"),
      (some .Altair, .field "attester_slashings"),
      (some .Bellatrix, .field "attester_slashings"),
      (some .Capella, .field "attester_slashings"), (some .Deneb, .field "attester_slashings")]⟩, -- 1793-1803
    ⟨"attester_slashings", true, false, [(some .Phase0, .field "attester_slashings"),
      (some .Altair, .field "attester_slashings"),
      (some .Bellatrix, .field "attester_slashings"),
      (some .Capella, .field "attester_slashings"), (some .Deneb, .field "attester_slashings")]⟩, -- 1804-1814
    ⟨"attestations", false, false, [(some .Phase0, .field "attestations"),
      (some .Altair, .field "attestations"), (some .Bellatrix, .field "attestations"),
      (some .Capella, .field "attestations"), (some .Deneb, .field "attestations")]⟩, -- 1815-1825
    ⟨"attestations", true, false, [(some .Phase0, .field "attestations"),
      (some .Altair, .field "attestations"), (some .Bellatrix, .field "attestations"),
      (some .Capella, .field "attestations"), (some .Deneb, .field "attestations")]⟩, -- 1826-1836
    ⟨"deposits", false, false, [(some .Phase0, .field "deposits"),
      (some .Altair, .field "deposits"), (some .Bellatrix, .field "deposits"),
      (some .Capella, .field "deposits"), (some .Deneb, .field "deposits")]⟩, -- 1837-1845
    ⟨"deposits", true, false, [(some .Phase0, .field "deposits"),
      (some .Altair, .field "deposits"), (some .Bellatrix, .field "deposits"),
      (some .Capella, .field "deposits"), (some .Deneb, .field "deposits")]⟩, -- 1846-1854
    ⟨"voluntary_exits", false, false, [(some .Phase0, .field "voluntary_exits"),
      (some .Altair, .field "voluntary_exits"), (some .Bellatrix, .field "voluntary_exits"),
      (some .Capella, .field "voluntary_exits"), (some .Deneb, .field "voluntary_exits")]⟩, -- 1855-1863
    ⟨"voluntary_exits", true, false, [(some .Phase0, .field "voluntary_exits"),
      (some .Altair, .field "voluntary_exits"), (some .Bellatrix, .field "voluntary_exits"),
      (some .Capella, .field "voluntary_exits"), (some .Deneb, .field "voluntary_exits")]⟩, -- 1864-1872
    ⟨"sync_aggregate", false, true, [(some .Phase0, .none),
      (some .Altair, .field "sync_aggregate"), (some .Bellatrix, .field "sync_aggregate"),
      (some .Capella, .field "sync_aggregate"), (some .Deneb, .field "sync_aggregate")]⟩, -- 1873-1881
    ⟨"sync_aggregate", true, true, [(some .Phase0, .none),
      (some .Altair, .field "sync_aggregate"), (some .Bellatrix, .field "sync_aggregate"),
      (some .Capella, .field "sync_aggregate"), (some .Deneb, .field "sync_aggregate")]⟩, -- 1882-1890
    ⟨"execution_payload", false, true, [(some .Phase0, .none), (some .Altair, .none),
      (some .Bellatrix, .view "execution_payload" "ExecutionPayloadRef"),
      (some .Capella, .view "execution_payload" "ExecutionPayloadRef"),
      (some .Deneb, .view "execution_payload" "ExecutionPayloadRef")]⟩, -- 1891-1909
    ⟨"execution_payload", true, true, [(some .Phase0, .none), (some .Altair, .none),
      (some .Bellatrix, .view "execution_payload" "ExecutionPayloadRefMut"),
      (some .Capella, .view "execution_payload" "ExecutionPayloadRefMut"),
      (some .Deneb, .view "execution_payload" "ExecutionPayloadRefMut")]⟩, -- 1910-1928
    ⟨"bls_to_execution_changes", false, true, [(some .Phase0, .none), (some .Altair, .none),
      (some .Bellatrix, .none), (some .Capella, .field "bls_to_execution_changes"),
      (some .Deneb, .field "bls_to_execution_changes")]⟩, -- 1929-1939
    ⟨"bls_to_execution_changes", true, true, [(some .Phase0, .none), (some .Altair, .none),
      (some .Bellatrix, .none), (some .Capella, .field "bls_to_execution_changes"),
      (some .Deneb, .field "bls_to_execution_changes")]⟩, -- 1940-1950
    ⟨"blob_kzg_commitments", false, true, [(some .Phase0, .none), (some .Altair, .none),
      (some .Bellatrix, .none), (some .Capella, .none),
      (some .Deneb, .field "blob_kzg_commitments")]⟩, -- 1951-1961
    ⟨"blob_kzg_commitments", true, true, [(some .Phase0, .none), (some .Altair, .none),
      (some .Bellatrix, .none), (some .Capella, .none),
      (some .Deneb, .field "blob_kzg_commitments")]⟩] -- 1962-1972
  froms := [
    (.Phase0, .Phase0), -- 2019-2030
    (.Altair, .Altair), -- 2078-2090
    (.Bellatrix, .Bellatrix), -- 2142-2158
    (.Capella, .Capella), -- 2212-2230
    (.Deneb, .Deneb)] -- 2285-2304

/-- `BeaconState`, `types/beacon_state.rs:129-960` -/
def beaconState : ForkType where
  name := "BeaconState"
  kind := .owned
  base := Json.BeaconState
  accessors := [
    ⟨"phase0", false, true, [(some .Phase0, .all), (none, .none)]⟩, -- 129-147
    ⟨"phase0", true, true, [(some .Phase0, .all), (none, .none)]⟩, -- 148-166
    ⟨"altair", false, true, [(some .Altair, .all), (none, .none)]⟩, -- 167-185
    ⟨"altair", true, true, [(some .Altair, .all), (none, .none)]⟩, -- 186-204
    ⟨"bellatrix", false, true, [(some .Bellatrix, .all), (none, .none)]⟩, -- 205-225
    ⟨"bellatrix", true, true, [(some .Bellatrix, .all), (none, .none)]⟩, -- 226-246
    ⟨"capella", false, true, [(some .Capella, .all), (none, .none)]⟩, -- 247-267
    ⟨"capella", true, true, [(some .Capella, .all), (none, .none)]⟩, -- 268-288
    ⟨"deneb", false, true, [(some .Deneb, .all), (none, .none)]⟩, -- 289-309
    ⟨"deneb", true, true, [(some .Deneb, .all), (none, .none)]⟩, -- 310-330
    ⟨"version", false, false, [(some .Phase0, .version .Phase0),
      (some .Altair, .version .Altair), (some .Bellatrix, .version .Bellatrix),
      (some .Capella, .version .Capella), (some .Deneb, .version .Deneb)]⟩, -- 331-339
    ⟨"genesis_time", false, false, [(some .Phase0, .field "genesis_time"),
      (some .Altair, .field "genesis_time"), (some .Bellatrix, .field "genesis_time"),
      (some .Capella, .field "genesis_time"), (some .Deneb, .field "genesis_time")]⟩, -- 340-348
    ⟨"genesis_time", true, false, [(some .Phase0, .field "genesis_time"),
      (some .Altair, .field "genesis_time"), (some .Bellatrix, .field "genesis_time"),
      (some .Capella, .field "genesis_time"), (some .Deneb, .field "genesis_time")]⟩, -- 349-357
    ⟨"genesis_validators_root", false, false, [
      (some .Phase0, .field "genesis_validators_root"),
      (some .Altair, .field "genesis_validators_root"),
      (some .Bellatrix, .field "genesis_validators_root"),
      (some .Capella, .field "genesis_validators_root"),
      (some .Deneb, .field "genesis_validators_root")]⟩, -- 358-366
    ⟨"genesis_validators_root", true, false, [(some .Phase0, .field "genesis_validators_root"),
      (some .Altair, .field "genesis_validators_root"),
      (some .Bellatrix, .field "genesis_validators_root"),
      (some .Capella, .field "genesis_validators_root"),
      (some .Deneb, .field "genesis_validators_root")]⟩, -- 367-375
    ⟨"slot", false, false, [(some .Phase0, .field "slot"), (some .Altair, .field "slot"),
      (some .Bellatrix, .field "slot"), (some .Capella, .field "slot"),
      (some .Deneb, .field "slot")]⟩, -- 376-384
    ⟨"slot", true, false, [(some .Phase0, .field "slot"), (some .Altair, .field "slot"),
      (some .Bellatrix, .field "slot"), (some .Capella, .field "slot"),
      (some .Deneb, .field "slot")]⟩, -- 385-393
    ⟨"fork", false, false, [(some .Phase0, .field "fork"), (some .Altair, .field "fork"),
      (some .Bellatrix, .field "fork"), (some .Capella, .field "fork"),
      (some .Deneb, .field "fork")]⟩, -- 394-402
    ⟨"fork", true, false, [(some .Phase0, .field "fork"), (some .Altair, .field "fork"),
      (some .Bellatrix, .field "fork"), (some .Capella, .field "fork"),
      (some .Deneb, .field "fork")]⟩, -- 403-411
    ⟨"latest_block_header", false, false, [(some .Phase0, .field "latest_block_header"),
      (some .Altair, .field "latest_block_header"),
      (some .Bellatrix, .field "latest_block_header"),
      (some .Capella, .field "latest_block_header"),
      (some .Deneb, .field "latest_block_header")]⟩, -- 412-420
    ⟨"latest_block_header", true, false, [(some .Phase0, .field "latest_block_header"),
      (some .Altair, .field "latest_block_header"),
      (some .Bellatrix, .field "latest_block_header"),
      (some .Capella, .field "latest_block_header"),
      (some .Deneb, .field "latest_block_header")]⟩, -- 421-429
    ⟨"block_roots", false, false, [(some .Phase0, .field "block_roots"),
      (some .Altair, .field "block_roots"), (some .Bellatrix, .field "block_roots"),
      (some .Capella, .field "block_roots"), (some .Deneb, .field "block_roots")]⟩, -- 430-438
    ⟨"block_roots", true, false, [(some .Phase0, .field "block_roots"),
      (some .Altair, .field "block_roots"), (some .Bellatrix, .field "block_roots"),
      (some .Capella, .field "block_roots"), (some .Deneb, .field "block_roots")]⟩, -- 439-447
    ⟨"state_roots", false, false, [(some .Phase0, .field "state_roots"),
      (some .Altair, .field "state_roots"), (some .Bellatrix, .field "state_roots"),
      (some .Capella, .field "state_roots"), (some .Deneb, .field "state_roots")]⟩, -- 448-456
    ⟨"state_roots", true, false, [(some .Phase0, .field "state_roots"),
      (some .Altair, .field "state_roots"), (some .Bellatrix, .field "state_roots"),
      (some .Capella, .field "state_roots"), (some .Deneb, .field "state_roots")]⟩, -- 457-465
    ⟨"historical_roots", false, false, [(some .Phase0, .field "historical_roots"),
      (some .Altair, .field "historical_roots"), (some .Bellatrix, .field "historical_roots"),
      (some .Capella, .field "historical_roots"), (some .Deneb, .field "historical_roots")]⟩, -- 466-474
    ⟨"historical_roots", true, false, [(some .Phase0, .field "historical_roots"),
      (some .Altair, .field "historical_roots"), (some .Bellatrix, .field "historical_roots"),
      (some .Capella, .field "historical_roots"), (some .Deneb, .field "historical_roots")]⟩, -- 475-483
    ⟨"eth1_data", false, false, [(some .Phase0, .field "eth1_data"),
      (some .Altair, .field "eth1_data"), (some .Bellatrix, .field "eth1_data"),
      (some .Capella, .field "eth1_data"), (some .Deneb, .field "eth1_data")]⟩, -- 484-492
    ⟨"eth1_data", true, false, [(some .Phase0, .field "eth1_data"),
      (some .Altair, .field "eth1_data"), (some .Bellatrix, .field "eth1_data"),
      (some .Capella, .field "eth1_data"), (some .Deneb, .field "eth1_data")]⟩, -- 493-501
    ⟨"eth1_data_votes", false, false, [(some .Phase0, .field "eth1_data_votes"),
      (some .Altair, .field "eth1_data_votes"), (some .Bellatrix, .field "eth1_data_votes"),
      (some .Capella, .field "eth1_data_votes"), (some .Deneb, .field "eth1_data_votes")]⟩, -- 502-510
    ⟨"eth1_data_votes", true, false, [(some .Phase0, .field "eth1_data_votes"),
      (some .Altair, .field "eth1_data_votes"), (some .Bellatrix, .field "eth1_data_votes"),
      (some .Capella, .field "eth1_data_votes"), (some .Deneb, .field "eth1_data_votes")]⟩, -- 511-519
    ⟨"eth1_deposit_index", false, false, [(some .Phase0, .field "eth1_deposit_index"),
      (some .Altair, .field "eth1_deposit_index"),
      (some .Bellatrix, .field "eth1_deposit_index"),
      (some .Capella, .field "eth1_deposit_index"), (some .Deneb, .field "eth1_deposit_index")]⟩, -- 520-528
    ⟨"eth1_deposit_index", true, false, [(some .Phase0, .field "eth1_deposit_index"),
      (some .Altair, .field "eth1_deposit_index"),
      (some .Bellatrix, .field "eth1_deposit_index"),
      (some .Capella, .field "eth1_deposit_index"), (some .Deneb, .field "eth1_deposit_index")]⟩, -- 529-537
    ⟨"validators", false, false, [(some .Phase0, .field "validators"),
      (some .Altair, .field "validators"), (some .Bellatrix, .field "validators"),
      (some .Capella, .field "validators"), (some .Deneb, .field "validators")]⟩, -- 538-546
    ⟨"validators", true, false, [(some .Phase0, .field "validators"),
      (some .Altair, .field "validators"), (some .Bellatrix, .field "validators"),
      (some .Capella, .field "validators"), (some .Deneb, .field "validators")]⟩, -- 547-555
    ⟨"balances", false, false, [(some .Phase0, .field "balances"),
      (some .Altair, .field "balances"), (some .Bellatrix, .field "balances"),
      (some .Capella, .field "balances"), (some .Deneb, .field "balances")]⟩, -- 556-564
    ⟨"balances", true, false, [(some .Phase0, .field "balances"),
      (some .Altair, .field "balances"), (some .Bellatrix, .field "balances"),
      (some .Capella, .field "balances"), (some .Deneb, .field "balances")]⟩, -- 565-573
    ⟨"randao_mixes", false, false, [(some .Phase0, .field "randao_mixes"),
      (some .Altair, .field "randao_mixes"), (some .Bellatrix, .field "randao_mixes"),
      (some .Capella, .field "randao_mixes"), (some .Deneb, .field "randao_mixes")]⟩, -- 574-582
    ⟨"randao_mixes", true, false, [(some .Phase0, .field "randao_mixes"),
      (some .Altair, .field "randao_mixes"), (some .Bellatrix, .field "randao_mixes"),
      (some .Capella, .field "randao_mixes"), (some .Deneb, .field "randao_mixes")]⟩, -- 583-591
    ⟨"slashings", false, false, [(some .Phase0, .field "slashings"),
      (some .Altair, .field "slashings"), (some .Bellatrix, .field "slashings"),
      (some .Capella, .field "slashings"), (some .Deneb, .field "slashings")]⟩, -- 592-600
    ⟨"slashings", true, false, [(some .Phase0, .field "slashings"),
      (some .Altair, .field "slashings"), (some .Bellatrix, .field "slashings"),
      (some .Capella, .field "slashings"), (some .Deneb, .field "slashings")]⟩, -- 601-609
    ⟨"previous_epoch_attestations", false, true, [
      (some .Phase0, .field "previous_epoch_attestations"), (some .Altair, .none),
      (some .Bellatrix, .none), (some .Capella, .none), (some .Deneb, .none)]⟩, -- 610-621
    ⟨"previous_epoch_attestations", true, true, [
      (some .Phase0, .field "previous_epoch_attestations"), (some .Altair, .none),
      (some .Bellatrix, .none), (some .Capella, .none), (some .Deneb, .none)]⟩, -- 622-634
    ⟨"current_epoch_attestations", false, true, [
      (some .Phase0, .field "current_epoch_attestations"), (some .Altair, .none),
      (some .Bellatrix, .none), (some .Capella, .none), (some .Deneb, .none)]⟩, -- 635-646
    ⟨"current_epoch_attestations", true, true, [
      (some .Phase0, .field "current_epoch_attestations"), (some .Altair, .none),
      (some .Bellatrix, .none), (some .Capella, .none), (some .Deneb, .none)]⟩, -- 647-659
    ⟨"justification_bits", false, false, [(some .Phase0, .field "justification_bits"),
      (some .Altair, .field "justification_bits"),
      (some .Bellatrix, .field "justification_bits"),
      (some .Capella, .field "justification_bits"), (some .Deneb, .field "justification_bits")]⟩, -- 660-668
    ⟨"justification_bits", true, false, [(some .Phase0, .field "justification_bits"),
      (some .Altair, .field "justification_bits"),
      (some .Bellatrix, .field "justification_bits"),
      (some .Capella, .field "justification_bits"), (some .Deneb, .field "justification_bits")]⟩, -- 669-677
    ⟨"previous_justified_checkpoint", false, false, [
      (some .Phase0, .field "previous_justified_checkpoint"),
      (some .Altair, .field "previous_justified_checkpoint"),
      (some .Bellatrix, .field "previous_justified_checkpoint"),
      (some .Capella, .field "previous_justified_checkpoint"),
      (some .Deneb, .field "previous_justified_checkpoint")]⟩, -- 678-686
    ⟨"previous_justified_checkpoint", true, false, [
      (some .Phase0, .field "previous_justified_checkpoint"),
      (some .Altair, .field "previous_justified_checkpoint"),
      (some .Bellatrix, .field "previous_justified_checkpoint"),
      (some .Capella, .field "previous_justified_checkpoint"),
      (some .Deneb, .field "previous_justified_checkpoint")]⟩, -- 687-695
    ⟨"current_justified_checkpoint", false, false, [
      (some .Phase0, .field "current_justified_checkpoint"),
      (some .Altair, .field "current_justified_checkpoint"),
      (some .Bellatrix, .field "current_justified_checkpoint"),
      (some .Capella, .field "current_justified_checkpoint"),
      (some .Deneb, .field "current_justified_checkpoint")]⟩, -- 696-704
    ⟨"current_justified_checkpoint", true, false, [
      (some .Phase0, .field "current_justified_checkpoint"),
      (some .Altair, .field "current_justified_checkpoint"),
      (some .Bellatrix, .field "current_justified_checkpoint"),
      (some .Capella, .field "current_justified_checkpoint"),
      (some .Deneb, .field "current_justified_checkpoint")]⟩, -- 705-713
    ⟨"finalized_checkpoint", false, false, [(some .Phase0, .field "finalized_checkpoint"),
      (some .Altair, .field "finalized_checkpoint"),
      (some .Bellatrix, .field "finalized_checkpoint"),
      (some .Capella, .field "finalized_checkpoint"),
      (some .Deneb, .field "finalized_checkpoint")]⟩, -- 714-722
    ⟨"finalized_checkpoint", true, false, [(some .Phase0, .field "finalized_checkpoint"),
      (some .Altair, .field "finalized_checkpoint"),
      (some .Bellatrix, .field "finalized_checkpoint"),
      (some .Capella, .field "finalized_checkpoint"),
      (some .Deneb, .field "finalized_checkpoint")]⟩, -- 723-731
    ⟨"previous_epoch_participation", false, true, [(some .Phase0, .none),
      (some .Altair, .field "previous_epoch_participation"),
      (some .Bellatrix, .field "previous_epoch_participation"),
      (some .Capella, .field "previous_epoch_participation"),
      (some .Deneb, .field "previous_epoch_participation")]⟩, -- 732-742
    ⟨"previous_epoch_participation", true, true, [(some .Phase0, .none),
      (some .Altair, .field "previous_epoch_participation"),
      (some .Bellatrix, .field "previous_epoch_participation"),
      (some .Capella, .field "previous_epoch_participation"),
      (some .Deneb, .field "previous_epoch_participation")]⟩, -- 743-753
    ⟨"current_epoch_participation", false, true, [(some .Phase0, .none),
      (some .Altair, .field "current_epoch_participation"),
      (some .Bellatrix, .field "current_epoch_participation"),
      (some .Capella, .field "current_epoch_participation"),
      (some .Deneb, .field "current_epoch_participation")]⟩, -- 754-764
    ⟨"current_epoch_participation", true, true, [(some .Phase0, .none),
      (some .Altair, .field "current_epoch_participation"),
      (some .Bellatrix, .field "current_epoch_participation"),
      (some .Capella, .field "current_epoch_participation"),
      (some .Deneb, .field "current_epoch_participation")]⟩, -- 765-775
    ⟨"inactivity_scores", false, true, [(some .Phase0, .none),
      (some .Altair, .field "inactivity_scores"),
      (some .Bellatrix, .field "inactivity_scores"),
      (some .Capella, .field "inactivity_scores"), (some .Deneb, .field "inactivity_scores")]⟩, -- 776-784
    ⟨"inactivity_scores", true, true, [(some .Phase0, .none),
      (some .Altair, .field "inactivity_scores"),
      (some .Bellatrix, .field "inactivity_scores"),
      (some .Capella, .field "inactivity_scores"), (some .Deneb, .field "inactivity_scores")]⟩, -- 785-793
    ⟨"current_sync_committee", false, true, [(some .Phase0, .none),
      (some .Altair, .field "current_sync_committee"),
      (some .Bellatrix, .field "current_sync_committee"),
      (some .Capella, .field "current_sync_committee"),
      (some .Deneb, .field "current_sync_committee")]⟩, -- 794-802
    ⟨"current_sync_committee", true, true, [(some .Phase0, .none),
      (some .Altair, .field "current_sync_committee"),
      (some .Bellatrix, .field "current_sync_committee"),
      (some .Capella, .field "current_sync_committee"),
      (some .Deneb, .field "current_sync_committee")]⟩, -- 803-813
    ⟨"next_sync_committee", false, true, [(some .Phase0, .none),
      (some .Altair, .field "next_sync_committee"),
      (some .Bellatrix, .field "next_sync_committee"),
      (some .Capella, .field "next_sync_committee"),
      (some .Deneb, .field "next_sync_committee")]⟩, -- 814-822
    ⟨"next_sync_committee", true, true, [(some .Phase0, .none),
      (some .Altair, .field "next_sync_committee"),
      (some .Bellatrix, .field "next_sync_committee"),
      (some .Capella, .field "next_sync_committee"),
      (some .Deneb, .field "next_sync_committee")]⟩, -- 823-831
    ⟨"latest_execution_payload_header", false, true, [(some .Phase0, .none),
      (some .Altair, .none),
      (some .Bellatrix, .view "latest_execution_payload_header" "ExecutionPayloadHeaderRef"),
      (some .Capella, .view "latest_execution_payload_header" "ExecutionPayloadHeaderRef"),
      (some .Deneb, .view "latest_execution_payload_header" "ExecutionPayloadHeaderRef")]⟩, -- 832-842
    ⟨"latest_execution_payload_header", true, true, [(some .Phase0, .none),
      (some .Altair, .none),
      (some .Bellatrix, .view "latest_execution_payload_header" "ExecutionPayloadHeaderRefMut"),
      (some .Capella, .view "latest_execution_payload_header" "ExecutionPayloadHeaderRefMut"),
      (some .Deneb, .view "latest_execution_payload_header" "ExecutionPayloadHeaderRefMut")]⟩, -- 843-853
    ⟨"next_withdrawal_index", false, true, [(some .Phase0, .none), (some .Altair, .none),
      (some .Bellatrix, .none), (some .Capella, .field "next_withdrawal_index"),
      (some .Deneb, .field "next_withdrawal_index")]⟩, -- 854-862
    ⟨"next_withdrawal_index", true, true, [(some .Phase0, .none), (some .Altair, .none),
      (some .Bellatrix, .none), (some .Capella, .field "next_withdrawal_index"),
      (some .Deneb, .field "next_withdrawal_index")]⟩, -- 863-871
    ⟨"next_withdrawal_validator_index", false, true, [(some .Phase0, .none),
      (some .Altair, .none), (some .Bellatrix, .none),
      (some .Capella, .field "next_withdrawal_validator_index"),
      (some .Deneb, .field "next_withdrawal_validator_index")]⟩, -- 872-880
    ⟨"next_withdrawal_validator_index", true, true, [(some .Phase0, .none),
      (some .Altair, .none), (some .Bellatrix, .none),
      (some .Capella, .field "next_withdrawal_validator_index"),
      (some .Deneb, .field "next_withdrawal_validator_index")]⟩, -- 881-889
    ⟨"historical_summaries", false, true, [(some .Phase0, .none), (some .Altair, .none),
      (some .Bellatrix, .none), (some .Capella, .field "historical_summaries"),
      (some .Deneb, .field "historical_summaries")]⟩, -- 890-898
    ⟨"historical_summaries", true, true, [(some .Phase0, .none), (some .Altair, .none),
      (some .Bellatrix, .none), (some .Capella, .field "historical_summaries"),
      (some .Deneb, .field "historical_summaries")]⟩] -- 899-909
  froms := []

/-- `BeaconStateRef`, `types/beacon_state.rs:1073-1756` -/
def beaconStateRef : ForkType where
  name := "BeaconStateRef"
  kind := .shared
  base := Json.BeaconState
  accessors := [
    ⟨"phase0", false, true, [(some .Phase0, .all), (none, .none)]⟩, -- 1073-1091
    ⟨"altair", false, true, [(some .Altair, .all), (none, .none)]⟩, -- 1092-1110
    ⟨"bellatrix", false, true, [(some .Bellatrix, .all), (none, .none)]⟩, -- 1111-1131
    ⟨"capella", false, true, [(some .Capella, .all), (none, .none)]⟩, -- 1132-1152
    ⟨"deneb", false, true, [(some .Deneb, .all), (none, .none)]⟩, -- 1153-1173
    ⟨"version", false, false, [(some .Phase0, .version .Phase0),
      (some .Altair, .version .Altair), (some .Bellatrix, .version .Bellatrix),
      (some .Capella, .version .Capella), (some .Deneb, .version .Deneb)]⟩, -- 1174-1182
    ⟨"genesis_time", false, false, [(some .Phase0, .field "genesis_time"),
      (some .Altair, .field "genesis_time"), (some .Bellatrix, .field "genesis_time"),
      (some .Capella, .field "genesis_time"), (some .Deneb, .field "genesis_time")]⟩, -- 1183-1191
    ⟨"genesis_validators_root", false, false, [
      (some .Phase0, .field "genesis_validators_root"),
      (some .Altair, .field "genesis_validators_root"),
      (some .Bellatrix, .field "genesis_validators_root"),
      (some .Capella, .field "genesis_validators_root"),
      (some .Deneb, .field "genesis_validators_root")]⟩, -- 1192-1200
    ⟨"slot", false, false, [(some .Phase0, .field "slot"), (some .Altair, .field "slot"),
      (some .Bellatrix, .field "slot"), (some .Capella, .field "slot"),
      (some .Deneb, .field "slot")]⟩, -- 1201-1209
    ⟨"fork", false, false, [(some .Phase0, .field "fork"), (some .Altair, .field "fork"),
      (some .Bellatrix, .field "fork"), (some .Capella, .field "fork"),
      (some .Deneb, .field "fork")]⟩, -- 1210-1218
    ⟨"latest_block_header", false, false, [(some .Phase0, .field "latest_block_header"),
      (some .Altair, .field "latest_block_header"),
      (some .Bellatrix, .field "latest_block_header"),
      (some .Capella, .field "latest_block_header"),
      (some .Deneb, .field "latest_block_header")]⟩, -- 1219-1227
    ⟨"block_roots", false, false, [(some .Phase0, .field "block_roots"),
      (some .Altair, .field "block_roots"), (some .Bellatrix, .field "block_roots"),
      (some .Capella, .field "block_roots"), (some .Deneb, .field "block_roots")]⟩, -- 1228-1236
    ⟨"state_roots", false, false, [(some .Phase0, .field "state_roots"),
      (some .Altair, .field "state_roots"), (some .Bellatrix, .field "state_roots"),
      (some .Capella, .field "state_roots"), (some .Deneb, .field "state_roots")]⟩, -- 1237-1245
    ⟨"historical_roots", false, false, [(some .Phase0, .field "historical_roots"),
      (some .Altair, .field "historical_roots"), (some .Bellatrix, .field "historical_roots"),
      (some .Capella, .field "historical_roots"), (some .Deneb, .field "historical_roots")]⟩, -- 1246-1254
    ⟨"eth1_data", false, false, [(some .Phase0, .field "eth1_data"),
      (some .Altair, .field "eth1_data"), (some .Bellatrix, .field "eth1_data"),
      (some .Capella, .field "eth1_data"), (some .Deneb, .field "eth1_data")]⟩, -- 1255-1263
    ⟨"eth1_data_votes", false, false, [(some .Phase0, .field "eth1_data_votes"),
      (some .Altair, .field "eth1_data_votes"), (some .Bellatrix, .field "eth1_data_votes"),
      (some .Capella, .field "eth1_data_votes"), (some .Deneb, .field "eth1_data_votes")]⟩, -- 1264-1272
    ⟨"eth1_deposit_index", false, false, [(some .Phase0, .field "eth1_deposit_index"),
      (some .Altair, .field "eth1_deposit_index"),
      (some .Bellatrix, .field "eth1_deposit_index"),
      (some .Capella, .field "eth1_deposit_index"), (some .Deneb, .field "eth1_deposit_index")]⟩, -- 1273-1281
    ⟨"validators", false, false, [(some .Phase0, .field "validators"),
      (some .Altair, .field "validators"), (some .Bellatrix, .field "validators"),
      (some .Capella, .field "validators"), (some .Deneb, .field "validators")]⟩, -- 1282-1290
    ⟨"balances", false, false, [(some .Phase0, .field "balances"),
      (some .Altair, .field "balances"), (some .Bellatrix, .field "balances"),
      (some .Capella, .field "balances"), (some .Deneb, .field "balances")]⟩, -- 1291-1299
    ⟨"randao_mixes", false, false, [(some .Phase0, .field "randao_mixes"),
      (some .Altair, .field "randao_mixes"), (some .Bellatrix, .field "randao_mixes"),
      (some .Capella, .field "randao_mixes"), (some .Deneb, .field "randao_mixes")]⟩, -- 1300-1308
    ⟨"slashings", false, false, [(some .Phase0, .field "slashings"),
      (some .Altair, .field "slashings"), (some .Bellatrix, .field "slashings"),
      (some .Capella, .field "slashings"), (some .Deneb, .field "slashings")]⟩, -- 1309-1317
    ⟨"previous_epoch_attestations", false, true, [
      (some .Phase0, .field "previous_epoch_attestations"), (some .Altair, .none),
      (some .Bellatrix, .none), (some .Capella, .none), (some .Deneb, .none)]⟩, -- 1318-1329
    ⟨"current_epoch_attestations", false, true, [
      (some .Phase0, .field "current_epoch_attestations"), (some .Altair, .none),
      (some .Bellatrix, .none), (some .Capella, .none), (some .Deneb, .none)]⟩, -- 1330-1341
    ⟨"justification_bits", false, false, [(some .Phase0, .field "justification_bits"),
      (some .Altair, .field "justification_bits"),
      (some .Bellatrix, .field "justification_bits"),
      (some .Capella, .field "justification_bits"), (some .Deneb, .field "justification_bits")]⟩, -- 1342-1350
    ⟨"previous_justified_checkpoint", false, false, [
      (some .Phase0, .field "previous_justified_checkpoint"),
      (some .Altair, .field "previous_justified_checkpoint"),
      (some .Bellatrix, .field "previous_justified_checkpoint"),
      (some .Capella, .field "previous_justified_checkpoint"),
      (some .Deneb, .field "previous_justified_checkpoint")]⟩, -- 1351-1359
    ⟨"current_justified_checkpoint", false, false, [
      (some .Phase0, .field "current_justified_checkpoint"),
      (some .Altair, .field "current_justified_checkpoint"),
      (some .Bellatrix, .field "current_justified_checkpoint"),
      (some .Capella, .field "current_justified_checkpoint"),
      (some .Deneb, .field "current_justified_checkpoint")]⟩, -- 1360-1368
    ⟨"finalized_checkpoint", false, false, [(some .Phase0, .field "finalized_checkpoint"),
      (some .Altair, .field "finalized_checkpoint"),
      (some .Bellatrix, .field "finalized_checkpoint"),
      (some .Capella, .field "finalized_checkpoint"),
      (some .Deneb, .field "finalized_checkpoint")]⟩, -- 1369-1377
    ⟨"previous_epoch_participation", false, true, [(some .Phase0, .none),
      (some .Altair, .field "previous_epoch_participation"),
      (some .Bellatrix, .field "previous_epoch_participation"),
      (some .Capella, .field "previous_epoch_participation"),
      (some .Deneb, .field "previous_epoch_participation")]⟩, -- 1378-1388
    ⟨"current_epoch_participation", false, true, [(some .Phase0, .none),
      (some .Altair, .field "current_epoch_participation"),
      (some .Bellatrix, .field "current_epoch_participation"),
      (some .Capella, .field "current_epoch_participation"),
      (some .Deneb, .field "current_epoch_participation")]⟩, -- 1389-1399
    ⟨"inactivity_scores", false, true, [(some .Phase0, .none),
      (some .Altair, .field "inactivity_scores"),
      (some .Bellatrix, .field "inactivity_scores"),
      (some .Capella, .field "inactivity_scores"), (some .Deneb, .field "inactivity_scores")]⟩, -- 1400-1408
    ⟨"current_sync_committee", false, true, [(some .Phase0, .none),
      (some .Altair, .field "current_sync_committee"),
      (some .Bellatrix, .field "current_sync_committee"),
      (some .Capella, .field "current_sync_committee"),
      (some .Deneb, .field "current_sync_committee")]⟩, -- 1409-1417
    ⟨"next_sync_committee", false, true, [(some .Phase0, .none),
      (some .Altair, .field "next_sync_committee"),
      (some .Bellatrix, .field "next_sync_committee"),
      (some .Capella, .field "next_sync_committee"),
      (some .Deneb, .field "next_sync_committee")]⟩, -- 1418-1426
    ⟨"latest_execution_payload_header", false, true, [(some .Phase0, .none),
      (some .Altair, .none),
      (some .Bellatrix, .view "latest_execution_payload_header" "ExecutionPayloadHeaderRef"),
      (some .Capella, .view "latest_execution_payload_header" "ExecutionPayloadHeaderRef"),
      (some .Deneb, .view "latest_execution_payload_header" "ExecutionPayloadHeaderRef")]⟩, -- 1427-1437
    ⟨"next_withdrawal_index", false, true, [(some .Phase0, .none), (some .Altair, .none),
      (some .Bellatrix, .none), (some .Capella, .field "next_withdrawal_index"),
      (some .Deneb, .field "next_withdrawal_index")]⟩, -- 1438-1446
    ⟨"next_withdrawal_validator_index", false, true, [(some .Phase0, .none),
      (some .Altair, .none), (some .Bellatrix, .none),
      (some .Capella, .field "next_withdrawal_validator_index"),
      (some .Deneb, .field "next_withdrawal_validator_index")]⟩, -- 1447-1455
    ⟨"historical_summaries", false, true, [(some .Phase0, .none), (some .Altair, .none),
      (some .Bellatrix, .none), (some .Capella, .field "historical_summaries"),
      (some .Deneb, .field "historical_summaries")]⟩] -- 1456-1464
  froms := [
    (.Phase0, .Phase0), -- 1507-1520
    (.Altair, .Altair), -- 1563-1576
    (.Bellatrix, .Bellatrix), -- 1621-1636
    (.Capella, .Capella), -- 1681-1696
    (.Deneb, .Deneb)] -- 1741-1756

/-- `BeaconStateRefMut`, `types/beacon_state.rs:1869-2941` -/
def beaconStateRefMut : ForkType where
  name := "BeaconStateRefMut"
  kind := .exclusive
  base := Json.BeaconState
  accessors := [
    ⟨"phase0", false, true, [(some .Phase0, .all), (none, .none)]⟩, -- 1869-1887
    ⟨"phase0", true, true, [(some .Phase0, .all), (none, .none)]⟩, -- 1888-1906
    ⟨"altair", false, true, [(some .Altair, .all), (none, .none)]⟩, -- 1907-1925
    ⟨"altair", true, true, [(some .Altair, .all), (none, .none)]⟩, -- 1926-1944
    ⟨"bellatrix", false, true, [(some .Bellatrix, .all), (none, .none)]⟩, -- 1945-1965
    ⟨"bellatrix", true, true, [(some .Bellatrix, .all), (none, .none)]⟩, -- 1966-1986
    ⟨"capella", false, true, [(some .Capella, .all), (none, .none)]⟩, -- 1987-2007
    ⟨"capella", true, true, [(some .Capella, .all), (none, .none)]⟩, -- 2008-2028
    ⟨"deneb", false, true, [(some .Deneb, .all), (none, .none)]⟩, -- 2029-2049
    ⟨"deneb", true, true, [(some .Deneb, .all), (none, .none)]⟩, -- 2050-2070
    ⟨"version", false, false, [(some .Phase0, .version .Phase0),
      (some .Altair, .version .Altair), (some .Bellatrix, .version .Bellatrix),
      (some .Capella, .version .Capella), (some .Deneb, .version .Deneb)]⟩, -- 2071-2079
    ⟨"genesis_time", false, false, [(some .Phase0, .field "genesis_time"),
      (some .Altair, .field "genesis_time"), (some .Bellatrix, .field "genesis_time"),
      (some .Capella, .field "genesis_time"), (some .Deneb, .field "genesis_time")]⟩, -- 2080-2088
    ⟨"genesis_time", true, false, [(some .Phase0, .field "genesis_time"),
      (some .Altair, .field "genesis_time"), (some .Bellatrix, .field "genesis_time"),
      (some .Capella, .field "genesis_time"), (some .Deneb, .field "genesis_time")]⟩, -- 2089-2097
    ⟨"genesis_validators_root", false, false, [
      (some .Phase0, .field "genesis_validators_root"),
      (some .Altair, .field "genesis_validators_root"),
      (some .Bellatrix, .field "genesis_validators_root"),
      (some .Capella, .field "genesis_validators_root"),
      (some .Deneb, .field "genesis_validators_root")]⟩, -- 2098-2106
    ⟨"genesis_validators_root", true, false, [(some .Phase0, .field "genesis_validators_root"),
      (some .Altair, .field "genesis_validators_root"),
      (some .Bellatrix, .field "genesis_validators_root"),
      (some .Capella, .field "genesis_validators_root"),
      (some .Deneb, .field "genesis_validators_root")]⟩, -- 2107-2115
    ⟨"slot", false, false, [(some .Phase0, .field "slot"), (some .Altair, .field "slot"),
      (some .Bellatrix, .field "slot"), (some .Capella, .field "slot"),
      (some .Deneb, .field "slot")]⟩, -- 2116-2124
    ⟨"slot", true, false, [(some .Phase0, .field "slot"), (some .Altair, .field "slot"),
      (some .Bellatrix, .field "slot"), (some .Capella, .field "slot"),
      (some .Deneb, .field "slot")]⟩, -- 2125-2133
    ⟨"fork", false, false, [(some .Phase0, .field "fork"), (some .Altair, .field "fork"),
      (some .Bellatrix, .field "fork"), (some .Capella, .field "fork"),
      (some .Deneb, .field "fork")]⟩, -- 2134-2142
    ⟨"fork", true, false, [(some .Phase0, .field "fork"), (some .Altair, .field "fork"),
      (some .Bellatrix, .field "fork"), (some .Capella, .field "fork"),
      (some .Deneb, .field "fork")]⟩, -- 2143-2151
    ⟨"latest_block_header", false, false, [(some .Phase0, .field "latest_block_header"),
      (some .Altair, .field "latest_block_header"),
      (some .Bellatrix, .field "latest_block_header"),
      (some .Capella, .field "latest_block_header"),
      (some .Deneb, .field "latest_block_header")]⟩, -- 2152-2160
    ⟨"latest_block_header", true, false, [(some .Phase0, .field "latest_block_header"),
      (some .Altair, .field "latest_block_header"),
      (some .Bellatrix, .field "latest_block_header"),
      (some .Capella, .field "latest_block_header"),
      (some .Deneb, .field "latest_block_header")]⟩, -- 2161-2169
    ⟨"block_roots", false, false, [(some .Phase0, .field "block_roots"),
      (some .Altair, .field "block_roots"), (some .Bellatrix, .field "block_roots"),
      (some .Capella, .field "block_roots"), (some .Deneb, .field "block_roots")]⟩, -- 2170-2178
    ⟨"block_roots", true, false, [(some .Phase0, .field "block_roots"),
      (some .Altair, .field "block_roots"), (some .Bellatrix, .field "block_roots"),
      (some .Capella, .field "block_roots"), (some .Deneb, .field "block_roots")]⟩, -- 2179-2187
    ⟨"state_roots", false, false, [(some .Phase0, .field "state_roots"),
      (some .Altair, .field "state_roots"), (some .Bellatrix, .field "state_roots"),
      (some .Capella, .field "state_roots"), (some .Deneb, .field "state_roots")]⟩, -- 2188-2196
    ⟨"state_roots", true, false, [(some .Phase0, .field "state_roots"),
      (some .Altair, .field "state_roots"), (some .Bellatrix, .field "state_roots"),
      (some .Capella, .field "state_roots"), (some .Deneb, .field "state_roots")]⟩, -- 2197-2205
    ⟨"historical_roots", false, false, [(some .Phase0, .field "historical_roots"),
      (some .Altair, .field "historical_roots"), (some .Bellatrix, .field "historical_roots"),
      (some .Capella, .field "historical_roots"), (some .Deneb, .field "historical_roots")]⟩, -- 2206-2214
    ⟨"historical_roots", true, false, [(some .Phase0, .field "historical_roots"),
      (some .Altair, .field "historical_roots"), (some .Bellatrix, .field "historical_roots"),
      (some .Capella, .field "historical_roots"), (some .Deneb, .field "historical_roots")]⟩, -- 2215-2223
    ⟨"eth1_data", false, false, [(some .Phase0, .field "eth1_data"),
      (some .Altair, .field "eth1_data"), (some .Bellatrix, .field "eth1_data"),
      (some .Capella, .field "eth1_data"), (some .Deneb, .field "eth1_data")]⟩, -- 2224-2232
    ⟨"eth1_data", true, false, [(some .Phase0, .field "eth1_data"),
      (some .Altair, .field "eth1_data"), (some .Bellatrix, .field "eth1_data"),
      (some .Capella, .field "eth1_data"), (some .Deneb, .field "eth1_data")]⟩, -- 2233-2241
    ⟨"eth1_data_votes", false, false, [(some .Phase0, .field "eth1_data_votes"),
      (some .Altair, .field "eth1_data_votes"), (some .Bellatrix, .field "eth1_data_votes"),
      (some .Capella, .field "eth1_data_votes"), (some .Deneb, .field "eth1_data_votes")]⟩, -- 2242-2250
    ⟨"eth1_data_votes", true, false, [(some .Phase0, .field "eth1_data_votes"),
      (some .Altair, .field "eth1_data_votes"), (some .Bellatrix, .field "eth1_data_votes"),
      (some .Capella, .field "eth1_data_votes"), (some .Deneb, .field "eth1_data_votes")]⟩, -- 2251-2259
    ⟨"eth1_deposit_index", false, false, [(some .Phase0, .field "eth1_deposit_index"),
      (some .Altair, .field "eth1_deposit_index"),
      (some .Bellatrix, .field "eth1_deposit_index"),
      (some .Capella, .field "eth1_deposit_index"), (some .Deneb, .field "eth1_deposit_index")]⟩, -- 2260-2268
    ⟨"eth1_deposit_index", true, false, [(some .Phase0, .field "eth1_deposit_index"),
      (some .Altair, .field "eth1_deposit_index"),
      (some .Bellatrix, .field "eth1_deposit_index"),
      (some .Capella, .field "eth1_deposit_index"), (some .Deneb, .field "eth1_deposit_index")]⟩, -- 2269-2277
    ⟨"validators", false, false, [(some .Phase0, .field "validators"),
      (some .Altair, .field "validators"), (some .Bellatrix, .field "validators"),
      (some .Capella, .field "validators"), (some .Deneb, .field "validators")]⟩, -- 2278-2286
    ⟨"validators", true, false, [(some .Phase0, .field "validators"),
      (some .Altair, .field "validators"), (some .Bellatrix, .field "validators"),
      (some .Capella, .field "validators"), (some .Deneb, .field "validators")]⟩, -- 2287-2295
    ⟨"balances", false, false, [(some .Phase0, .field "balances"),
      (some .Altair, .field "balances"), (some .Bellatrix, .field "balances"),
      (some .Capella, .field "balances"), (some .Deneb, .field "balances")]⟩, -- 2296-2304
    ⟨"balances", true, false, [(some .Phase0, .field "balances"),
      (some .Altair, .field "balances"), (some .Bellatrix, .field "balances"),
      (some .Capella, .field "balances"), (some .Deneb, .field "balances")]⟩, -- 2305-2313
    ⟨"randao_mixes", false, false, [(some .Phase0, .field "randao_mixes"),
      (some .Altair, .field "randao_mixes"), (some .Bellatrix, .field "randao_mixes"),
      (some .Capella, .field "randao_mixes"), (some .Deneb, .field "randao_mixes")]⟩, -- 2314-2322
    ⟨"randao_mixes", true, false, [(some .Phase0, .field "randao_mixes"),
      (some .Altair, .field "randao_mixes"), (some .Bellatrix, .field "randao_mixes"),
      (some .Capella, .field "randao_mixes"), (some .Deneb, .field "randao_mixes")]⟩, -- 2323-2331
    ⟨"slashings", false, false, [(some .Phase0, .field "slashings"),
      (some .Altair, .field "slashings"), (some .Bellatrix, .field "slashings"),
      (some .Capella, .field "slashings"), (some .Deneb, .field "slashings")]⟩, -- 2332-2340
    ⟨"slashings", true, false, [(some .Phase0, .field "slashings"),
      (some .Altair, .field "slashings"), (some .Bellatrix, .field "slashings"),
      (some .Capella, .field "slashings"), (some .Deneb, .field "slashings")]⟩, -- 2341-2349
    ⟨"previous_epoch_attestations", false, true, [
      (some .Phase0, .field "previous_epoch_attestations"), (some .Altair, .none),
      (some .Bellatrix, .none), (some .Capella, .none), (some .Deneb, .none)]⟩, -- 2350-2361
    ⟨"previous_epoch_attestations", true, true, [
      (some .Phase0, .field "previous_epoch_attestations"), (some .Altair, .none),
      (some .Bellatrix, .none), (some .Capella, .none), (some .Deneb, .none)]⟩, -- 2362-2374
    ⟨"current_epoch_attestations", false, true, [
      (some .Phase0, .field "current_epoch_attestations"), (some .Altair, .none),
      (some .Bellatrix, .none), (some .Capella, .none), (some .Deneb, .none)]⟩, -- 2375-2386
    ⟨"current_epoch_attestations", true, true, [
      (some .Phase0, .field "current_epoch_attestations"), (some .Altair, .none),
      (some .Bellatrix, .none), (some .Capella, .none), (some .Deneb, .none)]⟩, -- 2387-2399
    ⟨"justification_bits", false, false, [(some .Phase0, .field "justification_bits"),
      (some .Altair, .field "justification_bits"),
      (some .Bellatrix, .field "justification_bits"),
      (some .Capella, .field "justification_bits"), (some .Deneb, .field "justification_bits")]⟩, -- 2400-2408
    ⟨"justification_bits", true, false, [(some .Phase0, .field "justification_bits"),
      (some .Altair, .field "justification_bits"),
      (some .Bellatrix, .field "justification_bits"),
      (some .Capella, .field "justification_bits"), (some .Deneb, .field "justification_bits")]⟩, -- 2409-2417
    ⟨"previous_justified_checkpoint", false, false, [
      (some .Phase0, .field "previous_justified_checkpoint"),
      (some .Altair, .field "previous_justified_checkpoint"),
      (some .Bellatrix, .field "previous_justified_checkpoint"),
      (some .Capella, .field "previous_justified_checkpoint"),
      (some .Deneb, .field "previous_justified_checkpoint")]⟩, -- 2418-2426
    ⟨"previous_justified_checkpoint", true, false, [
      (some .Phase0, .field "previous_justified_checkpoint"),
      (some .Altair, .field "previous_justified_checkpoint"),
      (some .Bellatrix, .field "previous_justified_checkpoint"),
      (some .Capella, .field "previous_justified_checkpoint"),
      (some .Deneb, .field "previous_justified_checkpoint")]⟩, -- 2427-2435
    ⟨"current_justified_checkpoint", false, false, [
      (some .Phase0, .field "current_justified_checkpoint"),
      (some .Altair, .field "current_justified_checkpoint"),
      (some .Bellatrix, .field "current_justified_checkpoint"),
      (some .Capella, .field "current_justified_checkpoint"),
      (some .Deneb, .field "current_justified_checkpoint")]⟩, -- 2436-2444
    ⟨"current_justified_checkpoint", true, false, [
      (some .Phase0, .field "current_justified_checkpoint"),
      (some .Altair, .field "current_justified_checkpoint"),
      (some .Bellatrix, .field "current_justified_checkpoint"),
      (some .Capella, .field "current_justified_checkpoint"),
      (some .Deneb, .field "current_justified_checkpoint")]⟩, -- 2445-2453
    ⟨"finalized_checkpoint", false, false, [(some .Phase0, .field "finalized_checkpoint"),
      (some .Altair, .field "finalized_checkpoint"),
      (some .Bellatrix, .field "finalized_checkpoint"),
      (some .Capella, .field "finalized_checkpoint"),
      (some .Deneb, .field "finalized_checkpoint")]⟩, -- 2454-2462
    ⟨"finalized_checkpoint", true, false, [(some .Phase0, .field "finalized_checkpoint"),
      (some .Altair, .field "finalized_checkpoint"),
      (some .Bellatrix, .field "finalized_checkpoint"),
      (some .Capella, .field "finalized_checkpoint"),
      (some .Deneb, .field "finalized_checkpoint")]⟩, -- 2463-2471
    ⟨"previous_epoch_participation", false, true, [(some .Phase0, .none),
      (some .Altair, .field "previous_epoch_participation"),
      (some .Bellatrix, .field "previous_epoch_participation"),
      (some .Capella, .field "previous_epoch_participation"),
      (some .Deneb, .field "previous_epoch_participation")]⟩, -- 2472-2482
    ⟨"previous_epoch_participation", true, true, [(some .Phase0, .none),
      (some .Altair, .field "previous_epoch_participation"),
      (some .Bellatrix, .field "previous_epoch_participation"),
      (some .Capella, .field "previous_epoch_participation"),
      (some .Deneb, .field "previous_epoch_participation")]⟩, -- 2483-2493
    ⟨"current_epoch_participation", false, true, [(some .Phase0, .none),
      (some .Altair, .field "current_epoch_participation"),
      (some .Bellatrix, .field "current_epoch_participation"),
      (some .Capella, .field "current_epoch_participation"),
      (some .Deneb, .field "current_epoch_participation")]⟩, -- 2494-2504
    ⟨"current_epoch_participation", true, true, [(some .Phase0, .none),
      (some .Altair, .field "current_epoch_participation"),
      (some .Bellatrix, .field "current_epoch_participation"),
      (some .Capella, .field "current_epoch_participation"),
      (some .Deneb, .field "current_epoch_participation")]⟩, -- 2505-2515
    ⟨"inactivity_scores", false, true, [(some .Phase0, .none),
      (some .Altair, .field "inactivity_scores"),
      (some .Bellatrix, .field "inactivity_scores"),
      (some .Capella, .field "inactivity_scores"), (some .Deneb, .field "inactivity_scores")]⟩, -- 2516-2524
    ⟨"inactivity_scores", true, true, [(some .Phase0, .none),
      (some .Altair, .field "inactivity_scores"),
      (some .Bellatrix, .field "inactivity_scores"),
      (some .Capella, .field "inactivity_scores"), (some .Deneb, .field "inactivity_scores")]⟩, -- 2525-2533
    ⟨"current_sync_committee", false, true, [(some .Phase0, .none),
      (some .Altair, .field "current_sync_committee"),
      (some .Bellatrix, .field "current_sync_committee"),
      (some .Capella, .field "current_sync_committee"),
      (some .Deneb, .field "current_sync_committee")]⟩, -- 2534-2542
    ⟨"current_sync_committee", true, true, [(some .Phase0, .none),
      (some .Altair, .field "current_sync_committee"),
      (some .Bellatrix, .field "current_sync_committee"),
      (some .Capella, .field "current_sync_committee"),
      (some .Deneb, .field "current_sync_committee")]⟩, -- 2543-2553
    ⟨"next_sync_committee", false, true, [(some .Phase0, .none),
      (some .Altair, .field "next_sync_committee"),
      (some .Bellatrix, .field "next_sync_committee"),
      (some .Capella, .field "next_sync_committee"),
      (some .Deneb, .field "next_sync_committee")]⟩, -- 2554-2562
    ⟨"next_sync_committee", true, true, [(some .Phase0, .none),
      (some .Altair, .field "next_sync_committee"),
      (some .Bellatrix, .field "next_sync_committee"),
      (some .Capella, .field "next_sync_committee"),
      (some .Deneb, .field "next_sync_committee")]⟩, -- 2563-2571
    ⟨"latest_execution_payload_header", false, true, [(some .Phase0, .none),
      (some .Altair, .none),
      (some .Bellatrix, .view "latest_execution_payload_header" "ExecutionPayloadHeaderRef"),
      (some .Capella, .view "latest_execution_payload_header" "ExecutionPayloadHeaderRef"),
      (some .Deneb, .view "latest_execution_payload_header" "ExecutionPayloadHeaderRef")]⟩, -- 2572-2582
    ⟨"latest_execution_payload_header", true, true, [(some .Phase0, .none),
      (some .Altair, .none),
      (some .Bellatrix, .view "latest_execution_payload_header" "ExecutionPayloadHeaderRefMut"),
      (some .Capella, .view "latest_execution_payload_header" "ExecutionPayloadHeaderRefMut"),
      (some .Deneb, .view "latest_execution_payload_header" "ExecutionPayloadHeaderRefMut")]⟩, -- 2583-2593
    ⟨"next_withdrawal_index", false, true, [(some .Phase0, .none), (some .Altair, .none),
      (some .Bellatrix, .none), (some .Capella, .field "next_withdrawal_index"),
      (some .Deneb, .field "next_withdrawal_index")]⟩, -- 2594-2602
    ⟨"next_withdrawal_index", true, true, [(some .Phase0, .none), (some .Altair, .none),
      (some .Bellatrix, .none), (some .Capella, .field "next_withdrawal_index"),
      (some .Deneb, .field "next_withdrawal_index")]⟩, -- 2603-2611
    ⟨"next_withdrawal_validator_index", false, true, [(some .Phase0, .none),
      (some .Altair, .none), (some .Bellatrix, .none),
      (some .Capella, .field "next_withdrawal_validator_index"),
      (some .Deneb, .field "next_withdrawal_validator_index")]⟩, -- 2612-2620
    ⟨"next_withdrawal_validator_index", true, true, [(some .Phase0, .none),
      (some .Altair, .none), (some .Bellatrix, .none),
      (some .Capella, .field "next_withdrawal_validator_index"),
      (some .Deneb, .field "next_withdrawal_validator_index")]⟩, -- 2621-2629
    ⟨"historical_summaries", false, true, [(some .Phase0, .none), (some .Altair, .none),
      (some .Bellatrix, .none), (some .Capella, .field "historical_summaries"),
      (some .Deneb, .field "historical_summaries")]⟩, -- 2630-2638
    ⟨"historical_summaries", true, true, [(some .Phase0, .none), (some .Altair, .none),
      (some .Bellatrix, .none), (some .Capella, .field "historical_summaries"),
      (some .Deneb, .field "historical_summaries")]⟩] -- 2639-2649
  froms := [
    (.Phase0, .Phase0), -- 2692-2705
    (.Altair, .Altair), -- 2748-2761
    (.Bellatrix, .Bellatrix), -- 2806-2821
    (.Capella, .Capella), -- 2866-2881
    (.Deneb, .Deneb)] -- 2926-2941

/-- `BlindedBeaconBlock`, `types/blinded_beacon_block.rs:97-372` -/
def blindedBeaconBlock : ForkType where
  name := "BlindedBeaconBlock"
  kind := .owned
  base := Json.BlindedBeaconBlock
  accessors := [
    ⟨"bellatrix", false, true, [(some .Bellatrix, .all), (none, .none)]⟩, -- 97-116
    ⟨"bellatrix", true, true, [(some .Bellatrix, .all), (none, .none)]⟩, -- 117-136
    ⟨"capella", false, true, [(some .Capella, .all), (none, .none)]⟩, -- 137-157
    ⟨"capella", true, true, [(some .Capella, .all), (none, .none)]⟩, -- 158-178
    ⟨"deneb", false, true, [(some .Deneb, .all), (none, .none)]⟩, -- 179-200
    ⟨"deneb", true, true, [(some .Deneb, .all), (none, .none)]⟩, -- 201-222
    ⟨"version", false, false, [(some .Bellatrix, .version .Bellatrix),
      (some .Capella, .version .Capella), (some .Deneb, .version .Deneb)]⟩, -- 223-229
    ⟨"slot", false, false, [(some .Bellatrix, .field "slot"), (some .Capella, .field "slot"),
      (some .Deneb, .field "slot")]⟩, -- 230-236
    ⟨"slot", true, false, [(some .Bellatrix, .field "slot"), (some .Capella, .field "slot"),
      (some .Deneb, .field "slot")]⟩, -- 237-243
    ⟨"proposer_index", false, false, [(some .Bellatrix, .field "proposer_index"),
      (some .Capella, .field "proposer_index"), (some .Deneb, .field "proposer_index")]⟩, -- 244-250
    ⟨"proposer_index", true, false, [(some .Bellatrix, .field "proposer_index"),
      (some .Capella, .field "proposer_index"), (some .Deneb, .field "proposer_index")]⟩, -- 251-257
    ⟨"parent_root", false, false, [(some .Bellatrix, .field "parent_root"),
      (some .Capella, .field "parent_root"), (some .Deneb, .field "parent_root")]⟩, -- 258-264
    ⟨"parent_root", true, false, [(some .Bellatrix, .field "parent_root"),
      (some .Capella, .field "parent_root"), (some .Deneb, .field "parent_root")]⟩, -- 265-271
    ⟨"state_root", false, false, [(some .Bellatrix, .field "state_root"),
      (some .Capella, .field "state_root"), (some .Deneb, .field "state_root")]⟩, -- 272-278
    ⟨"state_root", true, false, [(some .Bellatrix, .field "state_root"),
      (some .Capella, .field "state_root"), (some .Deneb, .field "state_root")]⟩, -- 279-285
    ⟨"body", false, false, [(some .Bellatrix, .view "body" "BlindedBeaconBlockBodyRef"),
      (some .Capella, .view "body" "BlindedBeaconBlockBodyRef"),
      (some .Deneb, .view "body" "BlindedBeaconBlockBodyRef")]⟩, -- 286-306
    ⟨"body", true, false, [(some .Bellatrix, .view "body" "BlindedBeaconBlockBodyRefMut"),
      (some .Capella, .view "body" "BlindedBeaconBlockBodyRefMut"),
      (some .Deneb, .view "body" "BlindedBeaconBlockBodyRefMut")]⟩] -- 307-327
  froms := []

/-- `BlindedBeaconBlockRef`, `types/blinded_beacon_block.rs:461-759` -/
def blindedBeaconBlockRef : ForkType where
  name := "BlindedBeaconBlockRef"
  kind := .shared
  base := Json.BlindedBeaconBlock
  accessors := [
    ⟨"bellatrix", false, true, [(some .Bellatrix, .all), (none, .none)]⟩, -- 461-480
    ⟨"capella", false, true, [(some .Capella, .all), (none, .none)]⟩, -- 481-501
    ⟨"deneb", false, true, [(some .Deneb, .all), (none, .none)]⟩, -- 502-523
    ⟨"version", false, false, [(some .Bellatrix, .version .Bellatrix),
      (some .Capella, .version .Capella), (some .Deneb, .version .Deneb)]⟩, -- 524-530
    ⟨"slot", false, false, [(some .Bellatrix, .field "slot"), (some .Capella, .field "slot"),
      (some .Deneb, .field "slot")]⟩, -- 531-537
    ⟨"proposer_index", false, false, [(some .Bellatrix, .field "proposer_index"),
      (some .Capella, .field "proposer_index"), (some .Deneb, .field "proposer_index")]⟩, -- 538-544
    ⟨"parent_root", false, false, [(some .Bellatrix, .field "parent_root"),
      (some .Capella, .field "parent_root"), (some .Deneb, .field "parent_root")]⟩, -- 545-551
    ⟨"state_root", false, false, [(some .Bellatrix, .field "state_root"),
      (some .Capella, .field "state_root"), (some .Deneb, .field "state_root")]⟩, -- 552-558
    ⟨"body", false, false, [(some .Bellatrix, .view "body" "BlindedBeaconBlockBodyRef"),
      (some .Capella, .view "body" "BlindedBeaconBlockBodyRef"),
      (some .Deneb, .view "body" "BlindedBeaconBlockBodyRef")]⟩] -- 559-579
  froms := [
    (.Bellatrix, .Bellatrix), -- 623-637
    (.Capella, .Capella), -- 682-697
    (.Deneb, .Deneb)] -- 743-759

/-- `BlindedBeaconBlockRefMut`, `types/blinded_beacon_block.rs:848-1258` -/
def blindedBeaconBlockRefMut : ForkType where
  name := "BlindedBeaconBlockRefMut"
  kind := .exclusive
  base := Json.BlindedBeaconBlock
  accessors := [
    ⟨"bellatrix", false, true, [(some .Bellatrix, .all), (none, .none)]⟩, -- 848-867
    ⟨"bellatrix", true, true, [(some .Bellatrix, .all), (none, .none)]⟩, -- 868-887
    ⟨"capella", false, true, [(some .Capella, .all), (none, .none)]⟩, -- 888-908
    ⟨"capella", true, true, [(some .Capella, .all), (none, .none)]⟩, -- 909-929
    ⟨"deneb", false, true, [(some .Deneb, .all), (none, .none)]⟩, -- 930-951
    ⟨"deneb", true, true, [(some .Deneb, .all), (none, .none)]⟩, -- 952-973
    ⟨"version", false, false, [(some .Bellatrix, .version .Bellatrix),
      (some .Capella, .version .Capella), (some .Deneb, .version .Deneb)]⟩, -- 974-980
    ⟨"slot", false, false, [(some .Bellatrix, .field "slot"), (some .Capella, .field "slot"),
      (some .Deneb, .field "slot")]⟩, -- 981-987
    ⟨"slot", true, false, [(some .Bellatrix, .field "slot"), (some .Capella, .field "slot"),
      (some .Deneb, .field "slot")]⟩, -- 988-994
    ⟨"proposer_index", false, false, [(some .Bellatrix, .field "proposer_index"),
      (some .Capella, .field "proposer_index"), (some .Deneb, .field "proposer_index")]⟩, -- 995-1001
    ⟨"proposer_index", true, false, [(some .Bellatrix, .field "proposer_index"),
      (some .Capella, .field "proposer_index"), (some .Deneb, .field "proposer_index")]⟩, -- 1002-1008
    ⟨"parent_root", false, false, [(some .Bellatrix, .field "parent_root"),
      (some .Capella, .field "parent_root"), (some .Deneb, .field "parent_root")]⟩, -- 1009-1015
    ⟨"parent_root", true, false, [(some .Bellatrix, .field "parent_root"),
      (some .Capella, .field "parent_root"), (some .Deneb, .field "parent_root")]⟩, -- 1016-1022
    ⟨"state_root", false, false, [(some .Bellatrix, .field "state_root"),
      (some .Capella, .field "state_root"), (some .Deneb, .field "state_root")]⟩, -- 1023-1029
    ⟨"state_root", true, false, [(some .Bellatrix, .field "state_root"),
      (some .Capella, .field "state_root"), (some .Deneb, .field "state_root")]⟩, -- 1030-1036
    ⟨"body", false, false, [(some .Bellatrix, .view "body" "BlindedBeaconBlockBodyRef"),
      (some .Capella, .view "body" "BlindedBeaconBlockBodyRef"),
      (some .Deneb, .view "body" "BlindedBeaconBlockBodyRef")]⟩, -- 1037-1057
    ⟨"body", true, false, [(some .Bellatrix, .view "body" "BlindedBeaconBlockBodyRefMut"),
      (some .Capella, .view "body" "BlindedBeaconBlockBodyRefMut"),
      (some .Deneb, .view "body" "BlindedBeaconBlockBodyRefMut")]⟩] -- 1058-1078
  froms := [
    (.Bellatrix, .Bellatrix), -- 1122-1136
    (.Capella, .Capella), -- 1181-1196
    (.Deneb, .Deneb)] -- 1242-1258

/-- `BlindedBeaconBlockBody`, `types/blinded_beacon_block_body.rs:102-469` -/
def blindedBeaconBlockBody : ForkType where
  name := "BlindedBeaconBlockBody"
  kind := .owned
  base := Json.BlindedBeaconBlockBody
  accessors := [
    ⟨"bellatrix", false, true, [(some .Bellatrix, .all), (none, .none)]⟩, -- 102-121
    ⟨"bellatrix", true, true, [(some .Bellatrix, .all), (none, .none)]⟩, -- 122-141
    ⟨"capella", false, true, [(some .Capella, .all), (none, .none)]⟩, -- 142-162
    ⟨"capella", true, true, [(some .Capella, .all), (none, .none)]⟩, -- 163-183
    ⟨"deneb", false, true, [(some .Deneb, .all), (none, .none)]⟩, -- 184-205
    ⟨"deneb", true, true, [(some .Deneb, .all), (none, .none)]⟩, -- 206-227
    ⟨"version", false, false, [(some .Bellatrix, .version .Bellatrix),
      (some .Capella, .version .Capella), (some .Deneb, .version .Deneb)]⟩, -- 228-234
    ⟨"randao_reveal", false, false, [(some .Bellatrix, .field "randao_reveal"),
      (some .Capella, .field "randao_reveal"), (some .Deneb, .field "randao_reveal")]⟩, -- 235-241
    ⟨"randao_reveal", true, false, [(some .Bellatrix, .field "randao_reveal"),
      (some .Capella, .field "randao_reveal"), (some .Deneb, .field "randao_reveal")]⟩, -- 242-248
    ⟨"eth1_data", false, false, [(some .Bellatrix, .field "eth1_data"),
      (some .Capella, .field "eth1_data"), (some .Deneb, .field "eth1_data")]⟩, -- 249-255
    ⟨"eth1_data", true, false, [(some .Bellatrix, .field "eth1_data"),
      (some .Capella, .field "eth1_data"), (some .Deneb, .field "eth1_data")]⟩, -- 256-262
    ⟨"graffiti", false, false, [(some .Bellatrix, .field "graffiti"),
      (some .Capella, .field "graffiti"), (some .Deneb, .field "graffiti")]⟩, -- 263-269
    ⟨"graffiti", true, false, [(some .Bellatrix, .field "graffiti"),
      (some .Capella, .field "graffiti"), (some .Deneb, .field "graffiti")]⟩, -- 270-276
    ⟨"proposer_slashings", false, false, [(some .Bellatrix, .field "proposer_slashings"),
      (some .Capella, .field "proposer_slashings"), (some .Deneb, .field "proposer_slashings")]⟩, -- 277-283
    ⟨"proposer_slashings", true, false, [(some .Bellatrix, .field "proposer_slashings"),
      (some .Capella, .field "proposer_slashings"), (some .Deneb, .field "proposer_slashings")]⟩, -- 284-292
    ⟨"attester_slashings", false, false, [(some .Bellatrix, .field "attester_slashings"),
      (some .Capella, .field "attester_slashings"), (some .Deneb, .field "attester_slashings")]⟩, -- 293-301
    ⟨"attester_slashings", true, false, [(some .Bellatrix, .field "attester_slashings"),
      (some .Capella, .field "attester_slashings"), (some .Deneb, .field "attester_slashings")]⟩, -- 302-310
    ⟨"attestations", false, false, [(some .Bellatrix, .field "attestations"),
      (some .Capella, .field "attestations"), (some .Deneb, .field "attestations")]⟩, -- 311-319
    ⟨"attestations", true, false, [(some .Bellatrix, .field "attestations"),
      (some .Capella, .field "attestations"), (some .Deneb, .field "attestations")]⟩, -- 320-328
    ⟨"deposits", false, false, [(some .Bellatrix, .field "deposits"),
      (some .Capella, .field "deposits"), (some .Deneb, .field "deposits")]⟩, -- 329-335
    ⟨"deposits", true, false, [(some .Bellatrix, .field "deposits"),
      (some .Capella, .field "deposits"), (some .Deneb, .field "deposits")]⟩, -- 336-342
    ⟨"voluntary_exits", false, false, [(some .Bellatrix, .field "voluntary_exits"),
      (some .Capella, .field "voluntary_exits"), (some .Deneb, .field "voluntary_exits")]⟩, -- 343-349
    ⟨"voluntary_exits", true, false, [(some .Bellatrix, .field "voluntary_exits"),
      (some .Capella, .field "voluntary_exits"), (some .Deneb, .field "voluntary_exits")]⟩, -- 350-356
    ⟨"sync_aggregate", false, false, [(some .Bellatrix, .field "sync_aggregate"),
      (some .Capella, .field "sync_aggregate"), (some .Deneb, .field "sync_aggregate")]⟩, -- 357-363
    ⟨"sync_aggregate", true, false, [(some .Bellatrix, .field "sync_aggregate"),
      (some .Capella, .field "sync_aggregate"), (some .Deneb, .field "sync_aggregate")]⟩, -- 364-370
    ⟨"execution_payload_header", false, false, [
      (some .Bellatrix, .view "execution_payload_header" "ExecutionPayloadHeaderRef"),
      (some .Capella, .view "execution_payload_header" "ExecutionPayloadHeaderRef"),
      (some .Deneb, .view "execution_payload_header" "ExecutionPayloadHeaderRef")]⟩, -- 371-379
    ⟨"execution_payload_header", true, false, [
      (some .Bellatrix, .view "execution_payload_header" "ExecutionPayloadHeaderRefMut"),
      (some .Capella, .view "execution_payload_header" "ExecutionPayloadHeaderRefMut"),
      (some .Deneb, .view "execution_payload_header" "ExecutionPayloadHeaderRefMut")]⟩, -- 380-388
    ⟨"bls_to_execution_changes", false, true, [(some .Bellatrix, .none),
      (some .Capella, .field "bls_to_execution_changes"),
      (some .Deneb, .field "bls_to_execution_changes")]⟩, -- 389-397
    ⟨"bls_to_execution_changes", true, true, [(some .Bellatrix, .none),
      (some .Capella, .field "bls_to_execution_changes"),
      (some .Deneb, .field "bls_to_execution_changes")]⟩, -- 398-406
    ⟨"blob_kzg_commitments", false, true, [(some .Bellatrix, .none), (some .Capella, .none),
      (some .Deneb, .field "blob_kzg_commitments")]⟩, -- 407-415
    ⟨"blob_kzg_commitments", true, true, [(some .Bellatrix, .none), (some .Capella, .none),
      (some .Deneb, .field "blob_kzg_commitments")]⟩] -- 416-424
  froms := []

/-- `BlindedBeaconBlockBodyRef`, `types/blinded_beacon_block_body.rs:558-901` -/
def blindedBeaconBlockBodyRef : ForkType where
  name := "BlindedBeaconBlockBodyRef"
  kind := .shared
  base := Json.BlindedBeaconBlockBody
  accessors := [
    ⟨"bellatrix", false, true, [(some .Bellatrix, .all), (none, .none)]⟩, -- 558-577
    ⟨"capella", false, true, [(some .Capella, .all), (none, .none)]⟩, -- 578-598
    ⟨"deneb", false, true, [(some .Deneb, .all), (none, .none)]⟩, -- 599-620
    ⟨"version", false, false, [(some .Bellatrix, .version .Bellatrix),
      (some .Capella, .version .Capella), (some .Deneb, .version .Deneb)]⟩, -- 621-627
    ⟨"randao_reveal", false, false, [(some .Bellatrix, .field "randao_reveal"),
      (some .Capella, .field "randao_reveal"), (some .Deneb, .field "randao_reveal")]⟩, -- 628-634
    ⟨"eth1_data", false, false, [(some .Bellatrix, .field "eth1_data"),
      (some .Capella, .field "eth1_data"), (some .Deneb, .field "eth1_data")]⟩, -- 635-641
    ⟨"graffiti", false, false, [(some .Bellatrix, .field "graffiti"),
      (some .Capella, .field "graffiti"), (some .Deneb, .field "graffiti")]⟩, -- 642-648
    ⟨"proposer_slashings", false, false, [(some .Bellatrix, .field "proposer_slashings"),
      (some .Capella, .field "proposer_slashings"), (some .Deneb, .field "proposer_slashings")]⟩, -- 649-655
    ⟨"attester_slashings", false, false, [(some .Bellatrix, .field "attester_slashings"),
      (some .Capella, .field "attester_slashings"), (some .Deneb, .field "attester_slashings")]⟩, -- 656-664
    ⟨"attestations", false, false, [(some .Bellatrix, .field "attestations"),
      (some .Capella, .field "attestations"), (some .Deneb, .field "attestations")]⟩, -- 665-673
    ⟨"deposits", false, false, [(some .Bellatrix, .field "deposits"),
      (some .Capella, .field "deposits"), (some .Deneb, .field "deposits")]⟩, -- 674-680
    ⟨"voluntary_exits", false, false, [(some .Bellatrix, .field "voluntary_exits"),
      (some .Capella, .field "voluntary_exits"), (some .Deneb, .field "voluntary_exits")]⟩, -- 681-687
    ⟨"sync_aggregate", false, false, [(some .Bellatrix, .field "sync_aggregate"),
      (some .Capella, .field "sync_aggregate"), (some .Deneb, .field "sync_aggregate")]⟩, -- 688-694
    ⟨"execution_payload_header", false, false, [
      (some .Bellatrix, .view "execution_payload_header" "ExecutionPayloadHeaderRef"),
      (some .Capella, .view "execution_payload_header" "ExecutionPayloadHeaderRef"),
      (some .Deneb, .view "execution_payload_header" "ExecutionPayloadHeaderRef")]⟩, -- 695-703
    ⟨"bls_to_execution_changes", false, true, [(some .Bellatrix, .none),
      (some .Capella, .field "bls_to_execution_changes"),
      (some .Deneb, .field "bls_to_execution_changes")]⟩, -- 704-712
    ⟨"blob_kzg_commitments", false, true, [(some .Bellatrix, .none), (some .Capella, .none),
      (some .Deneb, .field "blob_kzg_commitments")]⟩] -- 713-721
  froms := [
    (.Bellatrix, .Bellatrix), -- 765-779
    (.Capella, .Capella), -- 824-839
    (.Deneb, .Deneb)] -- 885-901

/-- `BlindedBeaconBlockBodyRefMut`, `types/blinded_beacon_block_body.rs:990-1492` -/
def blindedBeaconBlockBodyRefMut : ForkType where
  name := "BlindedBeaconBlockBodyRefMut"
  kind := .exclusive
  base := Json.BlindedBeaconBlockBody
  accessors := [
    ⟨"bellatrix", false, true, [(some .Bellatrix, .all), (none, .none)]⟩, -- 990-1009
    ⟨"bellatrix", true, true, [(some .Bellatrix, .all), (none, .none)]⟩, -- 1010-1029
    ⟨"capella", false, true, [(some .Capella, .all), (none, .none)]⟩, -- 1030-1050
    ⟨"capella", true, true, [(some .Capella, .all), (none, .none)]⟩, -- 1051-1071
    ⟨"deneb", false, true, [(some .Deneb, .all), (none, .none)]⟩, -- 1072-1093
    ⟨"deneb", true, true, [(some .Deneb, .all), (none, .none)]⟩, -- 1094-1115
    ⟨"version", false, false, [(some .Bellatrix, .version .Bellatrix),
      (some .Capella, .version .Capella), (some .Deneb, .version .Deneb)]⟩, -- 1116-1122
    ⟨"randao_reveal", false, false, [(some .Bellatrix, .field "randao_reveal"),
      (some .Capella, .field "randao_reveal"), (some .Deneb, .field "randao_reveal")]⟩, -- 1123-1129
    ⟨"randao_reveal", true, false, [(some .Bellatrix, .field "randao_reveal"),
      (some .Capella, .field "randao_reveal"), (some .Deneb, .field "randao_reveal")]⟩, -- 1130-1136
    ⟨"eth1_data", false, false, [(some .Bellatrix, .field "eth1_data"),
      (some .Capella, .field "eth1_data"), (some .Deneb, .field "eth1_data")]⟩, -- 1137-1143
    ⟨"eth1_data", true, false, [(some .Bellatrix, .field "eth1_data"),
      (some .Capella, .field "eth1_data"), (some .Deneb, .field "eth1_data")]⟩, -- 1144-1150
    ⟨"graffiti", false, false, [(some .Bellatrix, .field "graffiti"),
      (some .Capella, .field "graffiti"), (some .Deneb, .field "graffiti")]⟩, -- 1151-1157
    ⟨"graffiti", true, false, [(some .Bellatrix, .field "graffiti"),
      (some .Capella, .field "graffiti"), (some .Deneb, .field "graffiti")]⟩, -- 1158-1164
    ⟨"proposer_slashings", false, false, [(some .Bellatrix, .field "proposer_slashings"),
      (some .Capella, .field "proposer_slashings"), (some .Deneb, .field "proposer_slashings")]⟩, -- 1165-1171
    ⟨"proposer_slashings", true, false, [(some .Bellatrix, .field "proposer_slashings"),
      (some .Capella, .field "proposer_slashings"), (some .Deneb, .field "proposer_slashings")]⟩, -- 1172-1180
    ⟨"attester_slashings", false, false, [(some .Bellatrix, .field "attester_slashings"),
      (some .Capella, .field "attester_slashings"), (some .Deneb, .field "attester_slashings")]⟩, -- 1181-1189
    ⟨"attester_slashings", true, false, [(some .Bellatrix, .field "attester_slashings"),
      (some .Capella, .field "attester_slashings"), (some .Deneb, .field "attester_slashings")]⟩, -- 1190-1198
    ⟨"attestations", false, false, [(some .Bellatrix, .field "attestations"),
      (some .Capella, .field "attestations"), (some .Deneb, .field "attestations")]⟩, -- 1199-1207
    ⟨"attestations", true, false, [(some .Bellatrix, .field "attestations"),
      (some .Capella, .field "attestations"), (some .Deneb, .field "attestations")]⟩, -- 1208-1216
    ⟨"deposits", false, false, [(some .Bellatrix, .field "deposits"),
      (some .Capella, .field "deposits"), (some .Deneb, .field "deposits")]⟩, -- 1217-1223
    ⟨"deposits", true, false, [(some .Bellatrix, .field "deposits"),
      (some .Capella, .field "deposits"), (some .Deneb, .field "deposits")]⟩, -- 1224-1230
    ⟨"voluntary_exits", false, false, [(some .Bellatrix, .field "voluntary_exits"),
      (some .Capella, .field "voluntary_exits"), (some .Deneb, .field "voluntary_exits")]⟩, -- 1231-1237
    ⟨"voluntary_exits", true, false, [(some .Bellatrix, .field "voluntary_exits"),
      (some .Capella, .field "voluntary_exits"), (some .Deneb, .field "voluntary_exits")]⟩, -- 1238-1244
    ⟨"sync_aggregate", false, false, [(some .Bellatrix, .field "sync_aggregate"),
      (some .Capella, .field "sync_aggregate"), (some .Deneb, .field "sync_aggregate")]⟩, -- 1245-1251
    ⟨"sync_aggregate", true, false, [(some .Bellatrix, .field "sync_aggregate"),
      (some .Capella, .field "sync_aggregate"), (some .Deneb, .field "sync_aggregate")]⟩, -- 1252-1258
    ⟨"execution_payload_header", false, false, [
      (some .Bellatrix, .view "execution_payload_header" "ExecutionPayloadHeaderRef"),
      (some .Capella, .view "execution_payload_header" "ExecutionPayloadHeaderRef"),
      (some .Deneb, .view "execution_payload_header" "ExecutionPayloadHeaderRef")]⟩, -- 1259-1267
    ⟨"execution_payload_header", true, false, [
      (some .Bellatrix, .view "execution_payload_header" "ExecutionPayloadHeaderRefMut"),
      (some .Capella, .view "execution_payload_header" "ExecutionPayloadHeaderRefMut"),
      (some .Deneb, .view "execution_payload_header" "ExecutionPayloadHeaderRefMut")]⟩, -- 1268-1276
    ⟨"bls_to_execution_changes", false, true, [(some .Bellatrix, .none),
      (some .Capella, .field "bls_to_execution_changes"),
      (some .Deneb, .field "bls_to_execution_changes")]⟩, -- 1277-1285
    ⟨"bls_to_execution_changes", true, true, [(some .Bellatrix, .none),
      (some .Capella, .field "bls_to_execution_changes"),
      (some .Deneb, .field "bls_to_execution_changes")]⟩, -- 1286-1294
    ⟨"blob_kzg_commitments", false, true, [(some .Bellatrix, .none), (some .Capella, .none),
      (some .Deneb, .field "blob_kzg_commitments")]⟩, -- 1295-1303
    ⟨"blob_kzg_commitments", true, true, [(some .Bellatrix, .none), (some .Capella, .none),
      (some .Deneb, .field "blob_kzg_commitments")]⟩] -- 1304-1312
  froms := [
    (.Bellatrix, .Bellatrix), -- 1356-1370
    (.Capella, .Capella), -- 1415-1430
    (.Deneb, .Deneb)] -- 1476-1492

/-- `ExecutionPayload`, `types/execution_payload.rs:62-439` -/
def executionPayload : ForkType where
  name := "ExecutionPayload"
  kind := .owned
  base := Json.ExecutionPayload
  accessors := [
    ⟨"bellatrix", false, true, [(some .Bellatrix, .all), (none, .none)]⟩, -- 62-76
    ⟨"bellatrix", true, true, [(some .Bellatrix, .all), (none, .none)]⟩, -- 77-91
    ⟨"capella", false, true, [(some .Capella, .all), (none, .none)]⟩, -- 92-107
    ⟨"capella", true, true, [(some .Capella, .all), (none, .none)]⟩, -- 108-123
    ⟨"deneb", false, true, [(some .Deneb, .all), (none, .none)]⟩, -- 124-139
    ⟨"deneb", true, true, [(some .Deneb, .all), (none, .none)]⟩, -- 140-155
    ⟨"version", false, false, [(some .Bellatrix, .version .Bellatrix),
      (some .Capella, .version .Capella), (some .Deneb, .version .Deneb)]⟩, -- 156-162
    ⟨"parent_hash", false, false, [(some .Bellatrix, .field "parent_hash"),
      (some .Capella, .field "parent_hash"), (some .Deneb, .field "parent_hash")]⟩, -- 163-169
    ⟨"parent_hash", true, false, [(some .Bellatrix, .field "parent_hash"),
      (some .Capella, .field "parent_hash"), (some .Deneb, .field "parent_hash")]⟩, -- 170-176
    ⟨"fee_recipient", false, false, [(some .Bellatrix, .field "fee_recipient"),
      (some .Capella, .field "fee_recipient"), (some .Deneb, .field "fee_recipient")]⟩, -- 177-183
    ⟨"fee_recipient", true, false, [(some .Bellatrix, .field "fee_recipient"),
      (some .Capella, .field "fee_recipient"), (some .Deneb, .field "fee_recipient")]⟩, -- 184-190
    ⟨"state_root", false, false, [(some .Bellatrix, .field "state_root"),
      (some .Capella, .field "state_root"), (some .Deneb, .field "state_root")]⟩, -- 191-197
    ⟨"state_root", true, false, [(some .Bellatrix, .field "state_root"),
      (some .Capella, .field "state_root"), (some .Deneb, .field "state_root")]⟩, -- 198-204
    ⟨"receipts_root", false, false, [(some .Bellatrix, .field "receipts_root"),
      (some .Capella, .field "receipts_root"), (some .Deneb, .field "receipts_root")]⟩, -- 205-211
    ⟨"receipts_root", true, false, [(some .Bellatrix, .field "receipts_root"),
      (some .Capella, .field "receipts_root"), (some .Deneb, .field "receipts_root")]⟩, -- 212-218
    ⟨"logs_bloom", false, false, [(some .Bellatrix, .field "logs_bloom"),
      (some .Capella, .field "logs_bloom"), (some .Deneb, .field "logs_bloom")]⟩, -- 219-225
    ⟨"logs_bloom", true, false, [(some .Bellatrix, .field "logs_bloom"),
      (some .Capella, .field "logs_bloom"), (some .Deneb, .field "logs_bloom")]⟩, -- 226-232
    ⟨"prev_randao", false, false, [(some .Bellatrix, .field "prev_randao"),
      (some .Capella, .field "prev_randao"), (some .Deneb, .field "prev_randao")]⟩, -- 233-239
    ⟨"prev_randao", true, false, [(some .Bellatrix, .field "prev_randao"),
      (some .Capella, .field "prev_randao"), (some .Deneb, .field "prev_randao")]⟩, -- 240-246
    ⟨"block_number", false, false, [(some .Bellatrix, .field "block_number"),
      (some .Capella, .field "block_number"), (some .Deneb, .field "block_number")]⟩, -- 247-253
    ⟨"block_number", true, false, [(some .Bellatrix, .field "block_number"),
      (some .Capella, .field "block_number"), (some .Deneb, .field "block_number")]⟩, -- 254-260
    ⟨"gas_limit", false, false, [(some .Bellatrix, .field "gas_limit"),
      (some .Capella, .field "gas_limit"), (some .Deneb, .field "gas_limit")]⟩, -- 261-267
    ⟨"gas_limit", true, false, [(some .Bellatrix, .field "gas_limit"),
      (some .Capella, .field "gas_limit"), (some .Deneb, .field "gas_limit")]⟩, -- 268-274
    ⟨"gas_used", false, false, [(some .Bellatrix, .field "gas_used"),
      (some .Capella, .field "gas_used"), (some .Deneb, .field "gas_used")]⟩, -- 275-281
    ⟨"gas_used", true, false, [(some .Bellatrix, .field "gas_used"),
      (some .Capella, .field "gas_used"), (some .Deneb, .field "gas_used")]⟩, -- 282-288
    ⟨"timestamp", false, false, [(some .Bellatrix, .field "timestamp"),
      (some .Capella, .field "timestamp"), (some .Deneb, .field "timestamp")]⟩, -- 289-295
    ⟨"timestamp", true, false, [(some .Bellatrix, .field "timestamp"),
      (some .Capella, .field "timestamp"), (some .Deneb, .field "timestamp")]⟩, -- 296-302
    ⟨"extra_data", false, false, [(some .Bellatrix, .field "extra_data"),
      (some .Capella, .field "extra_data"), (some .Deneb, .field "extra_data")]⟩, -- 303-309
    ⟨"extra_data", true, false, [(some .Bellatrix, .field "extra_data"),
      (some .Capella, .field "extra_data"), (some .Deneb, .field "extra_data")]⟩, -- 310-316
    ⟨"base_fee_per_gas", false, false, [(some .Bellatrix, .field "base_fee_per_gas"),
      (some .Capella, .field "base_fee_per_gas"), (some .Deneb, .field "base_fee_per_gas")]⟩, -- 317-323
    ⟨"base_fee_per_gas", true, false, [(some .Bellatrix, .field "base_fee_per_gas"),
      (some .Capella, .field "base_fee_per_gas"), (some .Deneb, .field "base_fee_per_gas")]⟩, -- 324-330
    ⟨"block_hash", false, false, [(some .Bellatrix, .field "block_hash"),
      (some .Capella, .field "block_hash"), (some .Deneb, .field "block_hash")]⟩, -- 331-337
    ⟨"block_hash", true, false, [(some .Bellatrix, .field "block_hash"),
      (some .Capella, .field "block_hash"), (some .Deneb, .field "block_hash")]⟩, -- 338-344
    ⟨"transactions", false, false, [(some .Bellatrix, .field "transactions"),
      (some .Capella, .field "transactions"), (some .Deneb, .field "transactions")]⟩, -- 345-353
    ⟨"transactions", true, false, [(some .Bellatrix, .field "transactions"),
      (some .Capella, .field "transactions"), (some .Deneb, .field "transactions")]⟩, -- 354-362
    ⟨"withdrawals", false, true, [(some .Bellatrix, .none),
      (some .Capella, .field "withdrawals"), (some .Deneb, .field "withdrawals")]⟩, -- 363-369
    ⟨"withdrawals", true, true, [(some .Bellatrix, .none),
      (some .Capella, .field "withdrawals"), (some .Deneb, .field "withdrawals")]⟩, -- 370-378
    ⟨"blob_gas_used", false, true, [(some .Bellatrix, .none), (some .Capella, .none),
      (some .Deneb, .field "blob_gas_used")]⟩, -- 379-385
    ⟨"blob_gas_used", true, true, [(some .Bellatrix, .none), (some .Capella, .none),
      (some .Deneb, .field "blob_gas_used")]⟩, -- 386-392
    ⟨"excess_blob_gas", false, true, [(some .Bellatrix, .none), (some .Capella, .none),
      (some .Deneb, .field "excess_blob_gas")]⟩, -- 393-399
    ⟨"excess_blob_gas", true, true, [(some .Bellatrix, .none), (some .Capella, .none),
      (some .Deneb, .field "excess_blob_gas")]⟩] -- 400-406
  froms := []

/-- `ExecutionPayloadRef`, `types/execution_payload.rs:494-780` -/
def executionPayloadRef : ForkType where
  name := "ExecutionPayloadRef"
  kind := .shared
  base := Json.ExecutionPayload
  accessors := [
    ⟨"bellatrix", false, true, [(some .Bellatrix, .all), (none, .none)]⟩, -- 494-508
    ⟨"capella", false, true, [(some .Capella, .all), (none, .none)]⟩, -- 509-524
    ⟨"deneb", false, true, [(some .Deneb, .all), (none, .none)]⟩, -- 525-540
    ⟨"version", false, false, [(some .Bellatrix, .version .Bellatrix),
      (some .Capella, .version .Capella), (some .Deneb, .version .Deneb)]⟩, -- 541-547
    ⟨"parent_hash", false, false, [(some .Bellatrix, .field "parent_hash"),
      (some .Capella, .field "parent_hash"), (some .Deneb, .field "parent_hash")]⟩, -- 548-554
    ⟨"fee_recipient", false, false, [(some .Bellatrix, .field "fee_recipient"),
      (some .Capella, .field "fee_recipient"), (some .Deneb, .field "fee_recipient")]⟩, -- 555-561
    ⟨"state_root", false, false, [(some .Bellatrix, .field "state_root"),
      (some .Capella, .field "state_root"), (some .Deneb, .field "state_root")]⟩, -- 562-568
    ⟨"receipts_root", false, false, [(some .Bellatrix, .field "receipts_root"),
      (some .Capella, .field "receipts_root"), (some .Deneb, .field "receipts_root")]⟩, -- 569-575
    ⟨"logs_bloom", false, false, [(some .Bellatrix, .field "logs_bloom"),
      (some .Capella, .field "logs_bloom"), (some .Deneb, .field "logs_bloom")]⟩, -- 576-582
    ⟨"prev_randao", false, false, [(some .Bellatrix, .field "prev_randao"),
      (some .Capella, .field "prev_randao"), (some .Deneb, .field "prev_randao")]⟩, -- 583-589
    ⟨"block_number", false, false, [(some .Bellatrix, .field "block_number"),
      (some .Capella, .field "block_number"), (some .Deneb, .field "block_number")]⟩, -- 590-596
    ⟨"gas_limit", false, false, [(some .Bellatrix, .field "gas_limit"),
      (some .Capella, .field "gas_limit"), (some .Deneb, .field "gas_limit")]⟩, -- 597-603
    ⟨"gas_used", false, false, [(some .Bellatrix, .field "gas_used"),
      (some .Capella, .field "gas_used"), (some .Deneb, .field "gas_used")]⟩, -- 604-610
    ⟨"timestamp", false, false, [(some .Bellatrix, .field "timestamp"),
      (some .Capella, .field "timestamp"), (some .Deneb, .field "timestamp")]⟩, -- 611-617
    ⟨"extra_data", false, false, [(some .Bellatrix, .field "extra_data"),
      (some .Capella, .field "extra_data"), (some .Deneb, .field "extra_data")]⟩, -- 618-624
    ⟨"base_fee_per_gas", false, false, [(some .Bellatrix, .field "base_fee_per_gas"),
      (some .Capella, .field "base_fee_per_gas"), (some .Deneb, .field "base_fee_per_gas")]⟩, -- 625-631
    ⟨"block_hash", false, false, [(some .Bellatrix, .field "block_hash"),
      (some .Capella, .field "block_hash"), (some .Deneb, .field "block_hash")]⟩, -- 632-638
    ⟨"transactions", false, false, [(some .Bellatrix, .field "transactions"),
      (some .Capella, .field "transactions"), (some .Deneb, .field "transactions")]⟩, -- 639-647
    ⟨"withdrawals", false, true, [(some .Bellatrix, .none),
      (some .Capella, .field "withdrawals"), (some .Deneb, .field "withdrawals")]⟩, -- 648-654
    ⟨"blob_gas_used", false, true, [(some .Bellatrix, .none), (some .Capella, .none),
      (some .Deneb, .field "blob_gas_used")]⟩, -- 655-661
    ⟨"excess_blob_gas", false, true, [(some .Bellatrix, .none), (some .Capella, .none),
      (some .Deneb, .field "excess_blob_gas")]⟩] -- 662-668
  froms := [
    (.Bellatrix, .Bellatrix), -- 695-704
    (.Capella, .Capella), -- 732-742
    (.Deneb, .Deneb)] -- 770-780

/-- `ExecutionPayloadRefMut`, `types/execution_payload.rs:835-1291` -/
def executionPayloadRefMut : ForkType where
  name := "ExecutionPayloadRefMut"
  kind := .exclusive
  base := Json.ExecutionPayload
  accessors := [
    ⟨"bellatrix", false, true, [(some .Bellatrix, .all), (none, .none)]⟩, -- 835-849
    ⟨"bellatrix", true, true, [(some .Bellatrix, .all), (none, .none)]⟩, -- 850-864
    ⟨"capella", false, true, [(some .Capella, .all), (none, .none)]⟩, -- 865-880
    ⟨"capella", true, true, [(some .Capella, .all), (none, .none)]⟩, -- 881-896
    ⟨"deneb", false, true, [(some .Deneb, .all), (none, .none)]⟩, -- 897-912
    ⟨"deneb", true, true, [(some .Deneb, .all), (none, .none)]⟩, -- 913-928
    ⟨"version", false, false, [(some .Bellatrix, .version .Bellatrix),
      (some .Capella, .version .Capella), (some .Deneb, .version .Deneb)]⟩, -- 929-935
    ⟨"parent_hash", false, false, [(some .Bellatrix, .field "parent_hash"),
      (some .Capella, .field "parent_hash"), (some .Deneb, .field "parent_hash")]⟩, -- 936-942
    ⟨"parent_hash", true, false, [(some .Bellatrix, .field "parent_hash"),
      (some .Capella, .field "parent_hash"), (some .Deneb, .field "parent_hash")]⟩, -- 943-949
    ⟨"fee_recipient", false, false, [(some .Bellatrix, .field "fee_recipient"),
      (some .Capella, .field "fee_recipient"), (some .Deneb, .field "fee_recipient")]⟩, -- 950-956
    ⟨"fee_recipient", true, false, [(some .Bellatrix, .field "fee_recipient"),
      (some .Capella, .field "fee_recipient"), (some .Deneb, .field "fee_recipient")]⟩, -- 957-963
    ⟨"state_root", false, false, [(some .Bellatrix, .field "state_root"),
      (some .Capella, .field "state_root"), (some .Deneb, .field "state_root")]⟩, -- 964-970
    ⟨"state_root", true, false, [(some .Bellatrix, .field "state_root"),
      (some .Capella, .field "state_root"), (some .Deneb, .field "state_root")]⟩, -- 971-977
    ⟨"receipts_root", false, false, [(some .Bellatrix, .field "receipts_root"),
      (some .Capella, .field "receipts_root"), (some .Deneb, .field "receipts_root")]⟩, -- 978-984
    ⟨"receipts_root", true, false, [(some .Bellatrix, .field "receipts_root"),
      (some .Capella, .field "receipts_root"), (some .Deneb, .field "receipts_root")]⟩, -- 985-991
    ⟨"logs_bloom", false, false, [(some .Bellatrix, .field "logs_bloom"),
      (some .Capella, .field "logs_bloom"), (some .Deneb, .field "logs_bloom")]⟩, -- 992-998
    ⟨"logs_bloom", true, false, [(some .Bellatrix, .field "logs_bloom"),
      (some .Capella, .field "logs_bloom"), (some .Deneb, .field "logs_bloom")]⟩, -- 999-1005
    ⟨"prev_randao", false, false, [(some .Bellatrix, .field "prev_randao"),
      (some .Capella, .field "prev_randao"), (some .Deneb, .field "prev_randao")]⟩, -- 1006-1012
    ⟨"prev_randao", true, false, [(some .Bellatrix, .field "prev_randao"),
      (some .Capella, .field "prev_randao"), (some .Deneb, .field "prev_randao")]⟩, -- 1013-1019
    ⟨"block_number", false, false, [(some .Bellatrix, .field "block_number"),
      (some .Capella, .field "block_number"), (some .Deneb, .field "block_number")]⟩, -- 1020-1026
    ⟨"block_number", true, false, [(some .Bellatrix, .field "block_number"),
      (some .Capella, .field "block_number"), (some .Deneb, .field "block_number")]⟩, -- 1027-1033
    ⟨"gas_limit", false, false, [(some .Bellatrix, .field "gas_limit"),
      (some .Capella, .field "gas_limit"), (some .Deneb, .field "gas_limit")]⟩, -- 1034-1040
    ⟨"gas_limit", true, false, [(some .Bellatrix, .field "gas_limit"),
      (some .Capella, .field "gas_limit"), (some .Deneb, .field "gas_limit")]⟩, -- 1041-1047
    ⟨"gas_used", false, false, [(some .Bellatrix, .field "gas_used"),
      (some .Capella, .field "gas_used"), (some .Deneb, .field "gas_used")]⟩, -- 1048-1054
    ⟨"gas_used", true, false, [(some .Bellatrix, .field "gas_used"),
      (some .Capella, .field "gas_used"), (some .Deneb, .field "gas_used")]⟩, -- 1055-1061
    ⟨"timestamp", false, false, [(some .Bellatrix, .field "timestamp"),
      (some .Capella, .field "timestamp"), (some .Deneb, .field "timestamp")]⟩, -- 1062-1068
    ⟨"timestamp", true, false, [(some .Bellatrix, .field "timestamp"),
      (some .Capella, .field "timestamp"), (some .Deneb, .field "timestamp")]⟩, -- 1069-1075
    ⟨"extra_data", false, false, [(some .Bellatrix, .field "extra_data"),
      (some .Capella, .field "extra_data"), (some .Deneb, .field "extra_data")]⟩, -- 1076-1082
    ⟨"extra_data", true, false, [(some .Bellatrix, .field "extra_data"),
      (some .Capella, .field "extra_data"), (some .Deneb, .field "extra_data")]⟩, -- 1083-1089
    ⟨"base_fee_per_gas", false, false, [(some .Bellatrix, .field "base_fee_per_gas"),
      (some .Capella, .field "base_fee_per_gas"), (some .Deneb, .field "base_fee_per_gas")]⟩, -- 1090-1096
    ⟨"base_fee_per_gas", true, false, [(some .Bellatrix, .field "base_fee_per_gas"),
      (some .Capella, .field "base_fee_per_gas"), (some .Deneb, .field "base_fee_per_gas")]⟩, -- 1097-1103
    ⟨"block_hash", false, false, [(some .Bellatrix, .field "block_hash"),
      (some .Capella, .field "block_hash"), (some .Deneb, .field "block_hash")]⟩, -- 1104-1110
    ⟨"block_hash", true, false, [(some .Bellatrix, .field "block_hash"),
      (some .Capella, .field "block_hash"), (some .Deneb, .field "block_hash")]⟩, -- 1111-1117
    ⟨"transactions", false, false, [(some .Bellatrix, .field "transactions"),
      (some .Capella, .field "transactions"), (some .Deneb, .field "transactions")]⟩, -- 1118-1126
    ⟨"transactions", true, false, [(some .Bellatrix, .field "transactions"),
      (some .Capella, .field "transactions"), (some .Deneb, .field "transactions")]⟩, -- 1127-1135
    ⟨"withdrawals", false, true, [(some .Bellatrix, .none),
      (some .Capella, .field "withdrawals"), (some .Deneb, .field "withdrawals")]⟩, -- 1136-1142
    ⟨"withdrawals", true, true, [(some .Bellatrix, .none),
      (some .Capella, .field "withdrawals"), (some .Deneb, .field "withdrawals")]⟩, -- 1143-1151
    ⟨"blob_gas_used", false, true, [(some .Bellatrix, .none), (some .Capella, .none),
      (some .Deneb, .field "blob_gas_used")]⟩, -- 1152-1158
    ⟨"blob_gas_used", true, true, [(some .Bellatrix, .none), (some .Capella, .none),
      (some .Deneb, .field "blob_gas_used")]⟩, -- 1159-1165
    ⟨"excess_blob_gas", false, true, [(some .Bellatrix, .none), (some .Capella, .none),
      (some .Deneb, .field "excess_blob_gas")]⟩, -- 1166-1172
    ⟨"excess_blob_gas", true, true, [(some .Bellatrix, .none), (some .Capella, .none),
      (some .Deneb, .field "excess_blob_gas")]⟩] -- 1173-1179
  froms := [
    (.Bellatrix, .Bellatrix), -- 1206-1215
    (.Capella, .Capella), -- 1243-1253
    (.Deneb, .Deneb)] -- 1281-1291

/-- `ExecutionPayloadHeader`, `types/execution_payload_header.rs:24-340` -/
def executionPayloadHeader : ForkType where
  name := "ExecutionPayloadHeader"
  kind := .owned
  base := Json.ExecutionPayloadHeader
  accessors := [
    ⟨"bellatrix", false, true, [(some .Bellatrix, .all), (none, .none)]⟩, -- 24-32
    ⟨"bellatrix", true, true, [(some .Bellatrix, .all), (none, .none)]⟩, -- 33-41
    ⟨"capella", false, true, [(some .Capella, .all), (none, .none)]⟩, -- 42-49
    ⟨"capella", true, true, [(some .Capella, .all), (none, .none)]⟩, -- 50-58
    ⟨"deneb", false, true, [(some .Deneb, .all), (none, .none)]⟩, -- 59-66
    ⟨"deneb", true, true, [(some .Deneb, .all), (none, .none)]⟩, -- 67-75
    ⟨"version", false, false, [(some .Bellatrix, .version .Bellatrix),
      (some .Capella, .version .Capella), (some .Deneb, .version .Deneb)]⟩, -- 76-82
    ⟨"parent_hash", false, false, [(some .Bellatrix, .field "parent_hash"),
      (some .Capella, .field "parent_hash"), (some .Deneb, .field "parent_hash")]⟩, -- 83-89
    ⟨"parent_hash", true, false, [(some .Bellatrix, .field "parent_hash"),
      (some .Capella, .field "parent_hash"), (some .Deneb, .field "parent_hash")]⟩, -- 90-96
    ⟨"fee_recipient", false, false, [(some .Bellatrix, .field "fee_recipient"),
      (some .Capella, .field "fee_recipient"), (some .Deneb, .field "fee_recipient")]⟩, -- 97-103
    ⟨"fee_recipient", true, false, [(some .Bellatrix, .field "fee_recipient"),
      (some .Capella, .field "fee_recipient"), (some .Deneb, .field "fee_recipient")]⟩, -- 104-110
    ⟨"state_root", false, false, [(some .Bellatrix, .field "state_root"),
      (some .Capella, .field "state_root"), (some .Deneb, .field "state_root")]⟩, -- 111-117
    ⟨"state_root", true, false, [(some .Bellatrix, .field "state_root"),
      (some .Capella, .field "state_root"), (some .Deneb, .field "state_root")]⟩, -- 118-124
    ⟨"receipts_root", false, false, [(some .Bellatrix, .field "receipts_root"),
      (some .Capella, .field "receipts_root"), (some .Deneb, .field "receipts_root")]⟩, -- 125-131
    ⟨"receipts_root", true, false, [(some .Bellatrix, .field "receipts_root"),
      (some .Capella, .field "receipts_root"), (some .Deneb, .field "receipts_root")]⟩, -- 132-138
    ⟨"logs_bloom", false, false, [(some .Bellatrix, .field "logs_bloom"),
      (some .Capella, .field "logs_bloom"), (some .Deneb, .field "logs_bloom")]⟩, -- 139-145
    ⟨"logs_bloom", true, false, [(some .Bellatrix, .field "logs_bloom"),
      (some .Capella, .field "logs_bloom"), (some .Deneb, .field "logs_bloom")]⟩, -- 146-152
    ⟨"prev_randao", false, false, [(some .Bellatrix, .field "prev_randao"),
      (some .Capella, .field "prev_randao"), (some .Deneb, .field "prev_randao")]⟩, -- 153-159
    ⟨"prev_randao", true, false, [(some .Bellatrix, .field "prev_randao"),
      (some .Capella, .field "prev_randao"), (some .Deneb, .field "prev_randao")]⟩, -- 160-166
    ⟨"block_number", false, false, [(some .Bellatrix, .field "block_number"),
      (some .Capella, .field "block_number"), (some .Deneb, .field "block_number")]⟩, -- 167-173
    ⟨"block_number", true, false, [(some .Bellatrix, .field "block_number"),
      (some .Capella, .field "block_number"), (some .Deneb, .field "block_number")]⟩, -- 174-180
    ⟨"gas_limit", false, false, [(some .Bellatrix, .field "gas_limit"),
      (some .Capella, .field "gas_limit"), (some .Deneb, .field "gas_limit")]⟩, -- 181-187
    ⟨"gas_limit", true, false, [(some .Bellatrix, .field "gas_limit"),
      (some .Capella, .field "gas_limit"), (some .Deneb, .field "gas_limit")]⟩, -- 188-194
    ⟨"gas_used", false, false, [(some .Bellatrix, .field "gas_used"),
      (some .Capella, .field "gas_used"), (some .Deneb, .field "gas_used")]⟩, -- 195-201
    ⟨"gas_used", true, false, [(some .Bellatrix, .field "gas_used"),
      (some .Capella, .field "gas_used"), (some .Deneb, .field "gas_used")]⟩, -- 202-208
    ⟨"timestamp", false, false, [(some .Bellatrix, .field "timestamp"),
      (some .Capella, .field "timestamp"), (some .Deneb, .field "timestamp")]⟩, -- 209-215
    ⟨"timestamp", true, false, [(some .Bellatrix, .field "timestamp"),
      (some .Capella, .field "timestamp"), (some .Deneb, .field "timestamp")]⟩, -- 216-222
    ⟨"extra_data", false, false, [(some .Bellatrix, .field "extra_data"),
      (some .Capella, .field "extra_data"), (some .Deneb, .field "extra_data")]⟩, -- 223-229
    ⟨"extra_data", true, false, [(some .Bellatrix, .field "extra_data"),
      (some .Capella, .field "extra_data"), (some .Deneb, .field "extra_data")]⟩, -- 230-236
    ⟨"base_fee_per_gas", false, false, [(some .Bellatrix, .field "base_fee_per_gas"),
      (some .Capella, .field "base_fee_per_gas"), (some .Deneb, .field "base_fee_per_gas")]⟩, -- 237-243
    ⟨"base_fee_per_gas", true, false, [(some .Bellatrix, .field "base_fee_per_gas"),
      (some .Capella, .field "base_fee_per_gas"), (some .Deneb, .field "base_fee_per_gas")]⟩, -- 244-250
    ⟨"block_hash", false, false, [(some .Bellatrix, .field "block_hash"),
      (some .Capella, .field "block_hash"), (some .Deneb, .field "block_hash")]⟩, -- 251-257
    ⟨"block_hash", true, false, [(some .Bellatrix, .field "block_hash"),
      (some .Capella, .field "block_hash"), (some .Deneb, .field "block_hash")]⟩, -- 258-264
    ⟨"transactions_root", false, false, [(some .Bellatrix, .field "transactions_root"),
      (some .Capella, .field "transactions_root"), (some .Deneb, .field "transactions_root")]⟩, -- 265-271
    ⟨"transactions_root", true, false, [(some .Bellatrix, .field "transactions_root"),
      (some .Capella, .field "transactions_root"), (some .Deneb, .field "transactions_root")]⟩, -- 272-278
    ⟨"withdrawals_root", false, true, [(some .Bellatrix, .none),
      (some .Capella, .field "withdrawals_root"), (some .Deneb, .field "withdrawals_root")]⟩, -- 279-285
    ⟨"withdrawals_root", true, true, [(some .Bellatrix, .none),
      (some .Capella, .field "withdrawals_root"), (some .Deneb, .field "withdrawals_root")]⟩, -- 286-292
    ⟨"blob_gas_used", false, true, [(some .Bellatrix, .none), (some .Capella, .none),
      (some .Deneb, .field "blob_gas_used")]⟩, -- 293-299
    ⟨"blob_gas_used", true, true, [(some .Bellatrix, .none), (some .Capella, .none),
      (some .Deneb, .field "blob_gas_used")]⟩, -- 300-306
    ⟨"excess_blob_gas", false, true, [(some .Bellatrix, .none), (some .Capella, .none),
      (some .Deneb, .field "excess_blob_gas")]⟩, -- 307-313
    ⟨"excess_blob_gas", true, true, [(some .Bellatrix, .none), (some .Capella, .none),
      (some .Deneb, .field "excess_blob_gas")]⟩] -- 314-320
  froms := []

/-- `ExecutionPayloadHeaderRef`, `types/execution_payload_header.rs:356-536` -/
def executionPayloadHeaderRef : ForkType where
  name := "ExecutionPayloadHeaderRef"
  kind := .shared
  base := Json.ExecutionPayloadHeader
  accessors := [
    ⟨"bellatrix", false, true, [(some .Bellatrix, .all), (none, .none)]⟩, -- 356-364
    ⟨"capella", false, true, [(some .Capella, .all), (none, .none)]⟩, -- 365-372
    ⟨"deneb", false, true, [(some .Deneb, .all), (none, .none)]⟩, -- 373-380
    ⟨"version", false, false, [(some .Bellatrix, .version .Bellatrix),
      (some .Capella, .version .Capella), (some .Deneb, .version .Deneb)]⟩, -- 381-387
    ⟨"parent_hash", false, false, [(some .Bellatrix, .field "parent_hash"),
      (some .Capella, .field "parent_hash"), (some .Deneb, .field "parent_hash")]⟩, -- 388-394
    ⟨"fee_recipient", false, false, [(some .Bellatrix, .field "fee_recipient"),
      (some .Capella, .field "fee_recipient"), (some .Deneb, .field "fee_recipient")]⟩, -- 395-401
    ⟨"state_root", false, false, [(some .Bellatrix, .field "state_root"),
      (some .Capella, .field "state_root"), (some .Deneb, .field "state_root")]⟩, -- 402-408
    ⟨"receipts_root", false, false, [(some .Bellatrix, .field "receipts_root"),
      (some .Capella, .field "receipts_root"), (some .Deneb, .field "receipts_root")]⟩, -- 409-415
    ⟨"logs_bloom", false, false, [(some .Bellatrix, .field "logs_bloom"),
      (some .Capella, .field "logs_bloom"), (some .Deneb, .field "logs_bloom")]⟩, -- 416-422
    ⟨"prev_randao", false, false, [(some .Bellatrix, .field "prev_randao"),
      (some .Capella, .field "prev_randao"), (some .Deneb, .field "prev_randao")]⟩, -- 423-429
    ⟨"block_number", false, false, [(some .Bellatrix, .field "block_number"),
      (some .Capella, .field "block_number"), (some .Deneb, .field "block_number")]⟩, -- 430-436
    ⟨"gas_limit", false, false, [(some .Bellatrix, .field "gas_limit"),
      (some .Capella, .field "gas_limit"), (some .Deneb, .field "gas_limit")]⟩, -- 437-443
    ⟨"gas_used", false, false, [(some .Bellatrix, .field "gas_used"),
      (some .Capella, .field "gas_used"), (some .Deneb, .field "gas_used")]⟩, -- 444-450
    ⟨"timestamp", false, false, [(some .Bellatrix, .field "timestamp"),
      (some .Capella, .field "timestamp"), (some .Deneb, .field "timestamp")]⟩, -- 451-457
    ⟨"extra_data", false, false, [(some .Bellatrix, .field "extra_data"),
      (some .Capella, .field "extra_data"), (some .Deneb, .field "extra_data")]⟩, -- 458-464
    ⟨"base_fee_per_gas", false, false, [(some .Bellatrix, .field "base_fee_per_gas"),
      (some .Capella, .field "base_fee_per_gas"), (some .Deneb, .field "base_fee_per_gas")]⟩, -- 465-471
    ⟨"block_hash", false, false, [(some .Bellatrix, .field "block_hash"),
      (some .Capella, .field "block_hash"), (some .Deneb, .field "block_hash")]⟩, -- 472-478
    ⟨"transactions_root", false, false, [(some .Bellatrix, .field "transactions_root"),
      (some .Capella, .field "transactions_root"), (some .Deneb, .field "transactions_root")]⟩, -- 479-485
    ⟨"withdrawals_root", false, true, [(some .Bellatrix, .none),
      (some .Capella, .field "withdrawals_root"), (some .Deneb, .field "withdrawals_root")]⟩, -- 486-492
    ⟨"blob_gas_used", false, true, [(some .Bellatrix, .none), (some .Capella, .none),
      (some .Deneb, .field "blob_gas_used")]⟩, -- 493-499
    ⟨"excess_blob_gas", false, true, [(some .Bellatrix, .none), (some .Capella, .none),
      (some .Deneb, .field "excess_blob_gas")]⟩] -- 500-506
  froms := [
    (.Bellatrix, .Bellatrix), -- 512-516
    (.Capella, .Capella), -- 522-526
    (.Deneb, .Deneb)] -- 532-536

/-- `ExecutionPayloadHeaderRefMut`, `types/execution_payload_header.rs:554-883` -/
def executionPayloadHeaderRefMut : ForkType where
  name := "ExecutionPayloadHeaderRefMut"
  kind := .exclusive
  base := Json.ExecutionPayloadHeader
  accessors := [
    ⟨"bellatrix", false, true, [(some .Bellatrix, .all), (none, .none)]⟩, -- 554-562
    ⟨"bellatrix", true, true, [(some .Bellatrix, .all), (none, .none)]⟩, -- 563-571
    ⟨"capella", false, true, [(some .Capella, .all), (none, .none)]⟩, -- 572-579
    ⟨"capella", true, true, [(some .Capella, .all), (none, .none)]⟩, -- 580-588
    ⟨"deneb", false, true, [(some .Deneb, .all), (none, .none)]⟩, -- 589-596
    ⟨"deneb", true, true, [(some .Deneb, .all), (none, .none)]⟩, -- 597-605
    ⟨"version", false, false, [(some .Bellatrix, .version .Bellatrix),
      (some .Capella, .version .Capella), (some .Deneb, .version .Deneb)]⟩, -- 606-612
    ⟨"parent_hash", false, false, [(some .Bellatrix, .field "parent_hash"),
      (some .Capella, .field "parent_hash"), (some .Deneb, .field "parent_hash")]⟩, -- 613-619
    ⟨"parent_hash", true, false, [(some .Bellatrix, .field "parent_hash"),
      (some .Capella, .field "parent_hash"), (some .Deneb, .field "parent_hash")]⟩, -- 620-626
    ⟨"fee_recipient", false, false, [(some .Bellatrix, .field "fee_recipient"),
      (some .Capella, .field "fee_recipient"), (some .Deneb, .field "fee_recipient")]⟩, -- 627-633
    ⟨"fee_recipient", true, false, [(some .Bellatrix, .field "fee_recipient"),
      (some .Capella, .field "fee_recipient"), (some .Deneb, .field "fee_recipient")]⟩, -- 634-640
    ⟨"state_root", false, false, [(some .Bellatrix, .field "state_root"),
      (some .Capella, .field "state_root"), (some .Deneb, .field "state_root")]⟩, -- 641-647
    ⟨"state_root", true, false, [(some .Bellatrix, .field "state_root"),
      (some .Capella, .field "state_root"), (some .Deneb, .field "state_root")]⟩, -- 648-654
    ⟨"receipts_root", false, false, [(some .Bellatrix, .field "receipts_root"),
      (some .Capella, .field "receipts_root"), (some .Deneb, .field "receipts_root")]⟩, -- 655-661
    ⟨"receipts_root", true, false, [(some .Bellatrix, .field "receipts_root"),
      (some .Capella, .field "receipts_root"), (some .Deneb, .field "receipts_root")]⟩, -- 662-668
    ⟨"logs_bloom", false, false, [(some .Bellatrix, .field "logs_bloom"),
      (some .Capella, .field "logs_bloom"), (some .Deneb, .field "logs_bloom")]⟩, -- 669-675
    ⟨"logs_bloom", true, false, [(some .Bellatrix, .field "logs_bloom"),
      (some .Capella, .field "logs_bloom"), (some .Deneb, .field "logs_bloom")]⟩, -- 676-682
    ⟨"prev_randao", false, false, [(some .Bellatrix, .field "prev_randao"),
      (some .Capella, .field "prev_randao"), (some .Deneb, .field "prev_randao")]⟩, -- 683-689
    ⟨"prev_randao", true, false, [(some .Bellatrix, .field "prev_randao"),
      (some .Capella, .field "prev_randao"), (some .Deneb, .field "prev_randao")]⟩, -- 690-696
    ⟨"block_number", false, false, [(some .Bellatrix, .field "block_number"),
      (some .Capella, .field "block_number"), (some .Deneb, .field "block_number")]⟩, -- 697-703
    ⟨"block_number", true, false, [(some .Bellatrix, .field "block_number"),
      (some .Capella, .field "block_number"), (some .Deneb, .field "block_number")]⟩, -- 704-710
    ⟨"gas_limit", false, false, [(some .Bellatrix, .field "gas_limit"),
      (some .Capella, .field "gas_limit"), (some .Deneb, .field "gas_limit")]⟩, -- 711-717
    ⟨"gas_limit", true, false, [(some .Bellatrix, .field "gas_limit"),
      (some .Capella, .field "gas_limit"), (some .Deneb, .field "gas_limit")]⟩, -- 718-724
    ⟨"gas_used", false, false, [(some .Bellatrix, .field "gas_used"),
      (some .Capella, .field "gas_used"), (some .Deneb, .field "gas_used")]⟩, -- 725-731
    ⟨"gas_used", true, false, [(some .Bellatrix, .field "gas_used"),
      (some .Capella, .field "gas_used"), (some .Deneb, .field "gas_used")]⟩, -- 732-738
    ⟨"timestamp", false, false, [(some .Bellatrix, .field "timestamp"),
      (some .Capella, .field "timestamp"), (some .Deneb, .field "timestamp")]⟩, -- 739-745
    ⟨"timestamp", true, false, [(some .Bellatrix, .field "timestamp"),
      (some .Capella, .field "timestamp"), (some .Deneb, .field "timestamp")]⟩, -- 746-752
    ⟨"extra_data", false, false, [(some .Bellatrix, .field "extra_data"),
      (some .Capella, .field "extra_data"), (some .Deneb, .field "extra_data")]⟩, -- 753-759
    ⟨"extra_data", true, false, [(some .Bellatrix, .field "extra_data"),
      (some .Capella, .field "extra_data"), (some .Deneb, .field "extra_data")]⟩, -- 760-766
    ⟨"base_fee_per_gas", false, false, [(some .Bellatrix, .field "base_fee_per_gas"),
      (some .Capella, .field "base_fee_per_gas"), (some .Deneb, .field "base_fee_per_gas")]⟩, -- 767-773
    ⟨"base_fee_per_gas", true, false, [(some .Bellatrix, .field "base_fee_per_gas"),
      (some .Capella, .field "base_fee_per_gas"), (some .Deneb, .field "base_fee_per_gas")]⟩, -- 774-780
    ⟨"block_hash", false, false, [(some .Bellatrix, .field "block_hash"),
      (some .Capella, .field "block_hash"), (some .Deneb, .field "block_hash")]⟩, -- 781-787
    ⟨"block_hash", true, false, [(some .Bellatrix, .field "block_hash"),
      (some .Capella, .field "block_hash"), (some .Deneb, .field "block_hash")]⟩, -- 788-794
    ⟨"transactions_root", false, false, [(some .Bellatrix, .field "transactions_root"),
      (some .Capella, .field "transactions_root"), (some .Deneb, .field "transactions_root")]⟩, -- 795-801
    ⟨"transactions_root", true, false, [(some .Bellatrix, .field "transactions_root"),
      (some .Capella, .field "transactions_root"), (some .Deneb, .field "transactions_root")]⟩, -- 802-808
    ⟨"withdrawals_root", false, true, [(some .Bellatrix, .none),
      (some .Capella, .field "withdrawals_root"), (some .Deneb, .field "withdrawals_root")]⟩, -- 809-815
    ⟨"withdrawals_root", true, true, [(some .Bellatrix, .none),
      (some .Capella, .field "withdrawals_root"), (some .Deneb, .field "withdrawals_root")]⟩, -- 816-822
    ⟨"blob_gas_used", false, true, [(some .Bellatrix, .none), (some .Capella, .none),
      (some .Deneb, .field "blob_gas_used")]⟩, -- 823-829
    ⟨"blob_gas_used", true, true, [(some .Bellatrix, .none), (some .Capella, .none),
      (some .Deneb, .field "blob_gas_used")]⟩, -- 830-836
    ⟨"excess_blob_gas", false, true, [(some .Bellatrix, .none), (some .Capella, .none),
      (some .Deneb, .field "excess_blob_gas")]⟩, -- 837-843
    ⟨"excess_blob_gas", true, true, [(some .Bellatrix, .none), (some .Capella, .none),
      (some .Deneb, .field "excess_blob_gas")]⟩] -- 844-850
  froms := [
    (.Bellatrix, .Bellatrix), -- 856-863
    (.Capella, .Capella), -- 869-873
    (.Deneb, .Deneb)] -- 879-883

/-- `SignedBeaconBlock`, `types/signed_beacon_block.rs:137-484` -/
def signedBeaconBlock : ForkType where
  name := "SignedBeaconBlock"
  kind := .owned
  base := Json.SignedBeaconBlock
  accessors := [
    ⟨"phase0", false, true, [(some .Phase0, .all), (none, .none)]⟩, -- 137-153
    ⟨"phase0", true, true, [(some .Phase0, .all), (none, .none)]⟩, -- 154-170
    ⟨"altair", false, true, [(some .Altair, .all), (none, .none)]⟩, -- 171-188
    ⟨"altair", true, true, [(some .Altair, .all), (none, .none)]⟩, -- 189-206
    ⟨"bellatrix", false, true, [(some .Bellatrix, .all), (none, .none)]⟩, -- 207-228
    ⟨"bellatrix", true, true, [(some .Bellatrix, .all), (none, .none)]⟩, -- 229-250
    ⟨"capella", false, true, [(some .Capella, .all), (none, .none)]⟩, -- 251-274
    ⟨"capella", true, true, [(some .Capella, .all), (none, .none)]⟩, -- 275-298
    ⟨"deneb", false, true, [(some .Deneb, .all), (none, .none)]⟩, -- 299-323
    ⟨"deneb", true, true, [(some .Deneb, .all), (none, .none)]⟩, -- 324-348
    ⟨"version", false, false, [(some .Phase0, .version .Phase0),
      (some .Altair, .version .Altair), (some .Bellatrix, .version .Bellatrix),
      (some .Capella, .version .Capella), (some .Deneb, .version .Deneb)]⟩, -- 349-357
    ⟨"message", false, false, [(some .Phase0, .view "message" "BeaconBlockRef"),
      (some .Altair, .view "message" "BeaconBlockRef"),
      (some .Bellatrix, .view "message" "BeaconBlockRef"),
      (some .Capella, .view "message" "BeaconBlockRef"),
      (some .Deneb, .view "message" "BeaconBlockRef")]⟩, -- 358-383
    ⟨"message", true, false, [(some .Phase0, .view "message" "BeaconBlockRefMut"),
      (some .Altair, .view "message" "BeaconBlockRefMut"),
      (some .Bellatrix, .view "message" "BeaconBlockRefMut"),
      (some .Capella, .view "message" "BeaconBlockRefMut"),
      (some .Deneb, .view "message" "BeaconBlockRefMut")]⟩, -- 384-409
    ⟨"signature", false, false, [(some .Phase0, .field "signature"),
      (some .Altair, .field "signature"), (some .Bellatrix, .field "signature"),
      (some .Capella, .field "signature"), (some .Deneb, .field "signature")]⟩, -- 410-418
    ⟨"signature", true, false, [(some .Phase0, .field "signature"),
      (some .Altair, .field "signature"), (some .Bellatrix, .field "signature"),
      (some .Capella, .field "signature"), (some .Deneb, .field "signature")]⟩] -- 419-427
  froms := []

/-- `SignedBlindedBeaconBlock`, `types/signed_blinded_beacon_block.rs:97-330` -/
def signedBlindedBeaconBlock : ForkType where
  name := "SignedBlindedBeaconBlock"
  kind := .owned
  base := Json.SignedBlindedBeaconBlock
  accessors := [
    ⟨"bellatrix", false, true, [(some .Bellatrix, .all), (none, .none)]⟩, -- 97-116
    ⟨"bellatrix", true, true, [(some .Bellatrix, .all), (none, .none)]⟩, -- 117-136
    ⟨"capella", false, true, [(some .Capella, .all), (none, .none)]⟩, -- 137-157
    ⟨"capella", true, true, [(some .Capella, .all), (none, .none)]⟩, -- 158-178
    ⟨"deneb", false, true, [(some .Deneb, .all), (none, .none)]⟩, -- 179-200
    ⟨"deneb", true, true, [(some .Deneb, .all), (none, .none)]⟩, -- 201-222
    ⟨"version", false, false, [(some .Bellatrix, .version .Bellatrix),
      (some .Capella, .version .Capella), (some .Deneb, .version .Deneb)]⟩, -- 223-229
    ⟨"message", false, false, [(some .Bellatrix, .view "message" "BlindedBeaconBlockRef"),
      (some .Capella, .view "message" "BlindedBeaconBlockRef"),
      (some .Deneb, .view "message" "BlindedBeaconBlockRef")]⟩, -- 230-250
    ⟨"message", true, false, [(some .Bellatrix, .view "message" "BlindedBeaconBlockRefMut"),
      (some .Capella, .view "message" "BlindedBeaconBlockRefMut"),
      (some .Deneb, .view "message" "BlindedBeaconBlockRefMut")]⟩, -- 251-271
    ⟨"signature", false, false, [(some .Bellatrix, .field "signature"),
      (some .Capella, .field "signature"), (some .Deneb, .field "signature")]⟩, -- 272-278
    ⟨"signature", true, false, [(some .Bellatrix, .field "signature"),
      (some .Capella, .field "signature"), (some .Deneb, .field "signature")]⟩] -- 279-285
  froms := []

/-- All the enums over forks, and the enums that refer to a value of one -/
def forkTypes : List ForkType := [
  beaconBlock, beaconBlockRef, beaconBlockRefMut, beaconBlockBody, beaconBlockBodyRef,
  beaconBlockBodyRefMut, beaconState, beaconStateRef, beaconStateRefMut, blindedBeaconBlock,
  blindedBeaconBlockRef, blindedBeaconBlockRefMut, blindedBeaconBlockBody,
  blindedBeaconBlockBodyRef, blindedBeaconBlockBodyRefMut, executionPayload,
  executionPayloadRef, executionPayloadRefMut, executionPayloadHeader,
  executionPayloadHeaderRef, executionPayloadHeaderRefMut, signedBeaconBlock,
  signedBlindedBeaconBlock]

end Verif.Accessors

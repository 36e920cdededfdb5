{"id": "C01", "title": "Frames are partitioned across writer processes", "statement": "With P file-writer processes of ranks 0..P-1 all configured with the same number of frames F and block size B>=1, every frame offset is accepted by exactly one rank, and the per-process frame totals the ranks compute for themselves add up to exactly F; each rank's total is the number of offsets below F that it accepts.", "quantifier": "every F, P>=1, B>=1, every rank and every frame offset", "why_tests_cant": "the arithmetic has several remainder cases (partial last block, partial last round of blocks); tests sample a handful of (F,P,B)", "anchors": ["cpp/frameProcessor/src/Acquisition.cpp:process_frame", "cpp/frameProcessor/src/FileWriterPlugin.cpp:calc_num_frames"]}
{"id": "C02", "title": "Frame placement is a bijection", "statement": "The map from a frame offset to (writer rank, file number, slot in that file) never sends two frames to the same place, the slot is always below the file capacity blocks_per_file*frames_per_block, and every slot of every file of every rank is the target of exactly one frame.", "quantifier": "every pair of frame offsets, every number of processes, frames per block, blocks per file (each >=1)", "why_tests_cant": "a collision (silent overwrite) needs a particular combination of the four parameters; the parameter space is infinite", "anchors": ["cpp/frameProcessor/src/Acquisition.cpp:get_frame_offset_in_file", "cpp/frameProcessor/src/Acquisition.cpp:get_file_index"]}
{"id": "C03", "title": "Distinct file numbers give distinct file names", "statement": "Two files of the same acquisition with different file numbers never get the same name (so creating one never truncates the other).", "quantifier": "every pair of file numbers, every starting index, filename, postfix and extension", "why_tests_cant": "the collision appears only for file numbers of one million and above, or when numbering is switched off", "anchors": ["cpp/frameProcessor/src/Acquisition.cpp:generate_filename"]}
{"id": "C04", "title": "A frame reported as written stays readable at its place", "statement": "If process_frame for a frame returned a non-error status then at every later point of the same acquisition the file given by the placement map holds that frame at the slot given by the placement map, unless the same frame offset is written again.", "quantifier": "every sequence of frames in any order, with any per-call file creation outcome", "why_tests_cant": "needs every arrival order across file rotations and every failure point of file creation", "anchors": ["cpp/frameProcessor/src/Acquisition.cpp:process_frame", "cpp/frameProcessor/src/Acquisition.cpp:get_file", "cpp/frameProcessor/src/Acquisition.cpp:create_file", "cpp/frameProcessor/src/HDF5File.cpp:create_file"]}
{"id": "C05", "title": "No frame is silently lost by the writer", "statement": "Each call of process_frame either writes the frame to the file and slot given by the placement map or reports an error; a frame for a file older than the two most recent ones is reported as an error and never written elsewhere.", "quantifier": "every writer state reachable by any frame sequence and every frame", "why_tests_cant": "depends on the whole arrival history relative to two open files", "anchors": ["cpp/frameProcessor/src/Acquisition.cpp:process_frame", "cpp/frameProcessor/src/Acquisition.cpp:get_file"]}
{"id": "C06", "title": "Offset adjustment never wraps", "statement": "A frame whose number plus offset adjustment is negative is rejected, and a frame whose number plus adjustment is non-negative is accepted with exactly that offset.", "quantifier": "every 64-bit frame number and every 64-bit adjustment", "why_tests_cant": "32-bit truncation only shows above 2^31 frames", "anchors": ["cpp/frameProcessor/src/Acquisition.cpp:adjust_frame_offset"]}
{"id": "C07", "title": "Only frames matching the dataset definition are written", "statement": "A frame is written only if its dataset is defined and its data type, compression and dimensions are known and equal to the definition; otherwise an error is reported and no file content changes.", "quantifier": "every frame and every set of dataset definitions", "why_tests_cant": "validation has many early exits; every combination must be covered", "anchors": ["cpp/frameProcessor/src/Acquisition.cpp:check_frame_valid"]}
{"id": "C08", "title": "The written-frames counter never goes backwards", "statement": "During one acquisition the reported number of frames written never decreases, and in the absence of dropped frames it is one more than the highest local frame index written so far.", "quantifier": "every sequence of frames", "why_tests_cant": "needs late frames for the previous file interleaved with rotation", "anchors": ["cpp/frameProcessor/src/Acquisition.cpp:process_frame", "cpp/frameProcessor/src/HDF5File.cpp:get_dataset_frames"]}
{"id": "C09", "title": "Acquisition completes exactly when all its frames have arrived", "statement": "If the frames of a rank arrive once each in any order that stays within the two-file window, process_frame returns \"complete\" for the last of them and for none before it.", "quantifier": "every frame count, block/file geometry and arrival order within the window", "why_tests_cant": "order- and geometry-dependent counters", "anchors": ["cpp/frameProcessor/src/Acquisition.cpp:process_frame"]}
{"id": "C10", "title": "At most two files are open and each is closed exactly once", "statement": "Between start and stop of an acquisition at most two files are open at any time; after stop none are, and every file announced as created is announced as closed exactly once.", "quantifier": "every sequence of frames, including jumps over several files, and stop at any point", "why_tests_cant": "rotation with gaps creates several files in one call", "anchors": ["cpp/frameProcessor/src/Acquisition.cpp:create_file", "cpp/frameProcessor/src/Acquisition.cpp:close_file", "cpp/frameProcessor/src/Acquisition.cpp:stop_acquisition"]}
{"id": "C11", "title": "Meta-data event stream is well formed", "statement": "The published event stream of an acquisition is startacquisition, then createfile/writeframe/closefile events in which each writeframe falls between the createfile and closefile of its file, then one stopacquisition.", "quantifier": "every sequence of frames and stop points", "why_tests_cant": "an ordering property over histories", "anchors": ["cpp/frameProcessor/src/Acquisition.cpp:start_acquisition", "cpp/frameProcessor/src/Acquisition.cpp:create_file", "cpp/frameProcessor/src/Acquisition.cpp:close_file", "cpp/frameProcessor/src/Acquisition.cpp:stop_acquisition"]}
{"id": "C12", "title": "Process geometry cannot change while writing", "statement": "While an acquisition is being written, no configuration message changes the number of processes, rank, frames per block or blocks per file; conflicting values are rejected with an error reply.", "quantifier": "every writer state and every configuration message", "why_tests_cant": "quantifies over all histories of configure and frame events", "anchors": ["cpp/frameProcessor/src/FileWriterPlugin.cpp:configure_process"]}
{"id": "C13", "title": "Every accepted process configuration is safe to run", "statement": "Any process configuration the plugin accepts leaves the writer in a state in which processing a frame does not divide by zero.", "quantifier": "every configuration message", "why_tests_cant": "needs the adversarial value (number = 0)", "anchors": ["cpp/frameProcessor/src/FileWriterPlugin.cpp:configure_process", "cpp/frameProcessor/src/Acquisition.cpp:process_frame", "cpp/frameProcessor/src/FileWriterPlugin.cpp:calc_num_frames"]}
{"id": "C14", "title": "Frames of another acquisition are never written", "statement": "While writing, a frame carrying an acquisition ID is written only if that ID equals the current acquisition (possibly after switching to the next one); a frame with a foreign ID is not written and the current acquisition is untouched.", "quantifier": "every plugin state and frame ID", "why_tests_cant": "histories of start/stop/auto-restart", "anchors": ["cpp/frameProcessor/src/FileWriterPlugin.cpp:frame_in_acquisition", "cpp/frameProcessor/src/FileWriterPlugin.cpp:process_frame"]}
{"id": "C15", "title": "Configuring the next acquisition does not disturb the current one", "statement": "While an acquisition is running, file path/name/prefix/extension, acquisition id, frame count and dataset settings only affect the next acquisition.", "quantifier": "every running state and configuration message", "why_tests_cant": "needs all interleavings of configuration with frame processing", "anchors": ["cpp/frameProcessor/src/FileWriterPlugin.cpp:configure_file", "cpp/frameProcessor/src/FileWriterPlugin.cpp:start_writing"]}
{"id": "C16", "title": "Close-file timeout cannot deadlock the writer", "statement": "The frame-processing thread, the timeout thread and the control thread never reach a state where each waits for a lock another holds.", "quantifier": "every interleaving of the three threads", "why_tests_cant": "a specific interleaving of three mutexes", "anchors": ["cpp/frameProcessor/src/FileWriterPlugin.cpp:process_frame", "cpp/frameProcessor/src/FileWriterPlugin.cpp:start_close_file_timeout", "cpp/frameProcessor/src/FileWriterPlugin.cpp:run_close_file_timeout", "cpp/frameProcessor/src/FileWriterPlugin.cpp:configure"]}
{"id": "C17", "title": "Dataset is sized to hold every frame routed to its file", "statement": "For a bounded acquisition the dataset created in file k is large enough for every frame the placement map sends to file k.", "quantifier": "every geometry, frame total and file number", "why_tests_cant": "remainder arithmetic of the last file", "anchors": ["cpp/frameProcessor/src/Acquisition.cpp:create_file"]}
{"id": "C18", "title": "Out-of-range slots are rejected", "statement": "A frame whose slot lies beyond the dataset extent is reported as an error, never passed to the HDF5 write.", "quantifier": "every dataset extent and slot", "why_tests_cant": "the check is skipped exactly when the maximum offset is zero", "anchors": ["cpp/frameProcessor/src/Acquisition.cpp:process_frame", "cpp/frameProcessor/src/HDF5File.cpp:get_dataset_max_size"]}
{"id": "C19", "title": "Extending a dataset never loses frames", "statement": "In an unlimited dataset the extent only grows, is always at least one more than the highest slot written, and every slot written keeps its last value.", "quantifier": "every sequence of writes", "why_tests_cant": "order dependent", "anchors": ["cpp/frameProcessor/src/HDF5File.cpp:write_frame", "cpp/frameProcessor/src/HDF5File.cpp:extend_dataset"]}
{"id": "C20", "title": "Gap filling is pixel exact", "statement": "For a valid chip layout with non-negative gaps, every source pixel appears in the output at its own coordinates shifted by the gaps before it, every other output pixel is zero, and all reads and writes are inside the buffers.", "quantifier": "every grid, chip size, gap lists and image", "why_tests_cant": "index arithmetic over all geometries", "anchors": ["cpp/frameProcessor/src/GapFillPlugin.cpp:insert_gaps", "cpp/frameProcessor/src/GapFillPlugin.cpp:configuration_valid"]}
{"id": "C21", "title": "Sum parameter equals the pixel sum", "statement": "The sum attached to a frame equals the arithmetic sum of its pixels modulo 2^64, and exactly the arithmetic sum for every image of fewer than 2^32 pixels of up to 32 bits.", "quantifier": "every image", "why_tests_cant": "overflow boundary", "anchors": ["cpp/frameProcessor/src/SumPlugin.cpp:calculate_sum"]}
{"id": "C22", "title": "Parameter and offset adjustment", "statement": "Each configured parameter adjustment is applied exactly once per frame using 64-bit arithmetic, and the frame is always passed on.", "quantifier": "every adjustment table, frame and order", "why_tests_cant": "map iteration order and overwritten inputs", "anchors": ["cpp/frameProcessor/src/ParameterAdjustmentPlugin.cpp:process_frame", "cpp/frameProcessor/src/OffsetAdjustmentPlugin.cpp:process_frame"]}
{"id": "C23", "title": "Live view down-samples exactly and never withholds frames", "statement": "With frame frequency N and no rate limit, exactly every N-th eligible frame of each filtered dataset is displayed; with a rate limit consecutive displayed frames due to the limit are at least the period apart; all frames are passed on.", "quantifier": "every frame sequence, filter and clock", "why_tests_cant": "long run behaviour", "anchors": ["cpp/frameProcessor/src/LiveViewPlugin.cpp:process_frame"]}
{"id": "C24", "title": "Compression settings change only between acquisitions", "statement": "Once an acquisition has started, all its frames are compressed with the settings in force at its first frame, and settings always stay within the ranges of the compressor.", "quantifier": "every interleaving of configuration and frames", "why_tests_cant": "history dependent", "anchors": ["cpp/frameProcessor/src/BloscPlugin.cpp:configure", "cpp/frameProcessor/src/BloscPlugin.cpp:process_frame"]}
{"id": "C25", "title": "Kafka message framing round trips", "statement": "A consumer reading the length prefix recovers exactly the header text and the image bytes.", "quantifier": "every header and image", "why_tests_cant": "the 16-bit length boundary", "anchors": ["cpp/frameProcessor/src/KafkaProducerPlugin.cpp:create_message"]}
{"id": "C26", "title": "Memory pool never hands a block to two users", "statement": "A block taken from the pool is not handed out again until it is released, under any sequence of take and single release, with any mix of sizes; all blocks handed out are at least the requested size.", "quantifier": "every take/release history", "why_tests_cant": "histories of reuse", "anchors": ["cpp/frameProcessor/src/DataBlockPool.cpp:internal_take", "cpp/frameProcessor/src/DataBlockPool.cpp:internal_release"]}
{"id": "C27", "title": "Copying a frame does not corrupt the pool", "statement": "Copying a pool-backed frame and dropping both copies returns its block to the pool once.", "quantifier": "every frame", "why_tests_cant": "ownership property", "anchors": ["cpp/frameProcessor/src/DataBlockFrame.cpp"]}
{"id": "C28", "title": "Work queues are FIFO and bounded", "statement": "Items leave the plugin queue in the order they entered, none lost or duplicated; the queue never exceeds its limit unless the caller explicitly ignores the limit.", "quantifier": "every interleaving of producers and consumer", "why_tests_cant": "all schedules", "anchors": ["cpp/frameProcessor/include/WorkQueue.h"]}
{"id": "C29", "title": "Work queues never lose a wake-up", "statement": "Whenever a queue is non-empty its consumer eventually runs, and whenever it has space a blocked producer eventually runs (no deadlock).", "quantifier": "every number of producer threads and every schedule", "why_tests_cant": "lost wake-ups need a specific schedule", "anchors": ["cpp/frameProcessor/include/WorkQueue.h:add", "cpp/frameProcessor/include/WorkQueue.h:remove"]}
{"id": "C30", "title": "Shared buffers do not overlap", "statement": "Every buffer handed out by the shared buffer manager lies inside the mapped region after the header, distinct buffers are disjoint, and an index at or above the number of buffers is rejected.", "quantifier": "every shared memory size, buffer size and index", "why_tests_cant": "integer division arithmetic", "anchors": ["cpp/common/src/SharedBufferManager.cpp"]}
{"id": "C31", "title": "A receive buffer has one owner", "statement": "At any time each shared buffer is in exactly one of: empty queue, mapped to one frame, or handed to the processor; none is lost or duplicated.", "quantifier": "every sequence of packets, timeouts and releases", "why_tests_cant": "needs late/duplicate packets racing the timeout", "anchors": ["cpp/frameReceiver/src/DummyUDPFrameDecoder.cpp:process_packet_header", "cpp/frameReceiver/src/DummyUDPFrameDecoder.cpp:process_packet", "cpp/frameReceiver/src/DummyUDPFrameDecoder.cpp:monitor_buffers", "cpp/frameReceiver/src/FrameDecoder.cpp:push_empty_buffer"]}
{"id": "C32", "title": "The decoder never writes outside the current frame buffer", "statement": "For every incoming packet header the state byte and the payload are written inside the buffer of the frame (or inside the scratch buffer).", "quantifier": "every packet header", "why_tests_cant": "adversarial/corrupt packet numbers", "anchors": ["cpp/frameReceiver/src/DummyUDPFrameDecoder.cpp:process_packet_header", "cpp/frameReceiver/src/DummyUDPFrameDecoder.cpp:get_next_payload_buffer"]}
{"id": "C33", "title": "A frame handed on as complete has all its packets", "statement": "When the decoder reports a frame complete, every packet number of that frame was received.", "quantifier": "every packet sequence including duplicates and reordering", "why_tests_cant": "duplicates", "anchors": ["cpp/frameReceiver/src/DummyUDPFrameDecoder.cpp:process_packet"]}
{"id": "C34", "title": "Packet and frame counters account for everything", "statement": "packets_received + packets_dropped equals the number of packets processed, packets lost equals the sum of missing packets of timed-out frames, and the dropped-frame counter counts every dropped frame.", "quantifier": "every packet/timeout sequence", "why_tests_cant": "interleaved frames while dropping", "anchors": ["cpp/frameReceiver/src/DummyUDPFrameDecoder.cpp"]}
{"id": "C35", "title": "Every incomplete frame is eventually released", "statement": "A frame still incomplete after the frame timeout is handed on by the next buffer monitor tick, and frames younger than the timeout are kept.", "quantifier": "every set of mapped frames and every time", "why_tests_cant": "time dependent", "anchors": ["cpp/frameReceiver/src/DummyUDPFrameDecoder.cpp:monitor_buffers"]}
{"id": "C36", "title": "Re-sending an unchanged configuration does not disturb the receiver", "statement": "A configure command that changes no parameter does not reload the decoder, recreate the shared memory or restart the receiver thread.", "quantifier": "every receiver state and configuration", "why_tests_cant": "history dependent flags", "anchors": ["cpp/frameReceiver/src/FrameReceiverController.cpp:configure_frame_decoder", "cpp/frameReceiver/src/FrameReceiverController.cpp:configure_buffer_manager", "cpp/frameReceiver/src/FrameReceiverController.cpp:configure_rx_thread"]}
{"id": "C37", "title": "Configuration status reflects all four channels", "statement": "ipc_configured is reported true only if the control, RX, frame-ready and frame-release channels are all configured.", "quantifier": "every configuration history", "why_tests_cant": "2^4 channel subsets", "anchors": ["cpp/frameReceiver/src/FrameReceiverController.cpp:configure_ipc_channels"]}
{"id": "C38", "title": "Every control request gets exactly one reply", "statement": "Each message received on the control channel gets exactly one reply addressed to the sender, with the request id if the message could be decoded.", "quantifier": "every message and every outcome of the command handlers", "why_tests_cant": "exceptional paths", "anchors": ["cpp/frameReceiver/src/FrameReceiverController.cpp:handle_ctrl_channel", "cpp/frameProcessor/src/FrameProcessorController.cpp:handleCtrlChannel"]}
{"id": "C39", "title": "Message parameters round trip", "statement": "After set_param(path,v), get_param(path) returns v and every parameter at an unrelated path is unchanged.", "quantifier": "every parameter tree, path and value", "why_tests_cant": "recursive path handling", "anchors": ["cpp/common/include/IpcMessage.h:set_param", "cpp/common/include/IpcMessage.h:get_param"]}
{"id": "C40", "title": "Message type and value names round trip", "statement": "Every message type and value encodes to a string that decodes to the same type/value, and unknown strings decode to illegal.", "quantifier": "every enumerator and every string", "why_tests_cant": "whole tables and all other strings", "anchors": ["cpp/common/src/IpcMessage.cpp:valid_msg_type", "cpp/common/src/IpcMessage.cpp:valid_msg_val"]}
{"id": "C41", "title": "Repeating timers fire the requested number of times and never early", "statement": "A timer registered with n repetitions fires exactly n times (forever if 0), its k-th firing is never before start+k*delay, and a removed timer does not fire again.", "quantifier": "every schedule of loop iterations and clock values", "why_tests_cant": "unbounded runs", "anchors": ["cpp/common/src/IpcReactor.cpp"]}
{"id": "C42", "title": "The event loop never sleeps past a due timer", "statement": "The poll timeout is never longer than the time to the earliest timer.", "quantifier": "every set of timers and clock value", "why_tests_cant": "all timer sets", "anchors": ["cpp/common/src/IpcReactor.cpp:calculate_timeout"]}
{"id": "C43", "title": "Port list configuration round trips", "statement": "The port list reported by the receiver, when configured again, yields the same ports; a list with no valid port is handled without crashing.", "quantifier": "every list of ports", "why_tests_cant": "string edge cases", "anchors": ["cpp/frameReceiver/include/FrameReceiverConfig.h:tokenize_port_list", "cpp/frameReceiver/include/FrameReceiverConfig.h:rx_port_list"]}
{"id": "C44", "title": "Simulated frames reassemble exactly", "statement": "The packets the simulator produces for an image, delivered to the decoder in any order, yield one complete frame whose payload is the image.", "quantifier": "every image size and packet size, every delivery order", "why_tests_cant": "composition over all sizes and permutations", "anchors": ["cpp/frameSimulator/src/DummyUDPFrameSimulatorPlugin.cpp:create_frames", "cpp/frameReceiver/src/DummyUDPFrameDecoder.cpp"]}
{"id": "C45", "title": "Each plugin output frame reaches every connected plugin once", "statement": "push delivers the frame exactly once to every registered callback and to no other; registering the same name twice does not deliver twice; a removed callback gets nothing.", "quantifier": "every sequence of register/remove/push", "why_tests_cant": "histories", "anchors": ["cpp/frameProcessor/src/FrameProcessorPlugin.cpp"]}
{"id": "C46", "title": "A shared frame is released exactly once after its last user", "statement": "The release notification for a received frame is sent exactly once, after every plugin holding it has dropped it.", "quantifier": "every number of consumers and drop order", "why_tests_cant": "reference counting over all orders", "anchors": ["cpp/frameProcessor/src/SharedBufferFrame.cpp", "cpp/frameProcessor/src/SharedMemoryController.cpp"]}
{"id": "C47", "title": "Lost packets are blanked", "statement": "In a frame with fewer packets than expected each missing packet region is zeroed and each received region is unchanged, and the lost counter grows by the number of missing packets.", "quantifier": "every packet state vector", "why_tests_cant": "all subsets of missing packets", "anchors": ["cpp/frameProcessor/src/DummyUDPProcessPlugin.cpp:process_lost_packets"]}
{"id": "C48", "title": "Data type and compression names round trip", "statement": "Names and enumerators of data types and compressions map to each other and unknown names map to unknown.", "quantifier": "every enumerator and string", "why_tests_cant": "whole table plus all other strings", "anchors": ["cpp/frameProcessor/src/FrameMetaData.cpp", "cpp/frameProcessor/include/FrameProcessorDefinitions.h"]}
{"id": "C49", "title": "Executing stored configurations terminates", "statement": "Executing any stored configuration terminates.", "quantifier": "every set of stored configurations", "why_tests_cant": "self reference", "anchors": ["cpp/frameProcessor/src/FrameProcessorController.cpp:configure"]}
{"id": "C50", "title": "Shutdown is idempotent and never lost", "statement": "A shutdown requested at any time makes waitForShutdown return, and repeated shutdowns have no further effect.", "quantifier": "every interleaving", "why_tests_cant": "lost wake-up before wait", "anchors": ["cpp/frameProcessor/src/FrameProcessorController.cpp:shutdown", "cpp/frameProcessor/src/FrameProcessorController.cpp:waitForShutdown"]}
{"id": "C51", "title": "Error log is duplicate free and complete", "statement": "Each distinct error reported since the last clear is listed exactly once, in order of first occurrence.", "quantifier": "every sequence of errors", "why_tests_cant": "histories", "anchors": ["cpp/frameProcessor/src/FrameProcessorPlugin.cpp:set_error"]}
{"id": "C52", "title": "Bound parameter containers round trip", "statement": "Encoding a parameter container and updating another one of the same type from the result makes all bound parameters equal; parameters absent from the update are unchanged.", "quantifier": "every binding and value", "why_tests_cant": "all documents", "anchors": ["cpp/common/src/ParamContainer.cpp"]}
{"id": "C53", "title": "Writing a started acquisition never reaches undefined behaviour", "statement": "Once an acquisition has been started from a configuration the plugin accepts, no frame and no HDF5 failure makes process_frame divide by zero, dereference a missing file or index an empty vector.", "quantifier": "every accepted configuration, every frame sequence, every pattern of HDF5 failures", "why_tests_cant": "needs failures at every point of every history", "anchors": ["cpp/frameProcessor/src/Acquisition.cpp:process_frame", "cpp/frameProcessor/src/Acquisition.cpp:create_file", "cpp/frameProcessor/src/HDF5File.cpp:write_frame"]}
{"id": "C54", "title": "Every written frame is announced exactly once", "statement": "Each frame process_frame reports as written adds exactly one writeframe event carrying its frame number and offset, in the order of processing; a frame reported as an error adds at most that one.", "quantifier": "every state, frame and frame sequence", "why_tests_cant": "needs all failure paths", "anchors": ["cpp/frameProcessor/src/Acquisition.cpp:process_frame"]}
{"id": "C55", "title": "Automatic restart never overwrites the finished acquisition", "statement": "When the running acquisition ends and the next one is started automatically, everything stored in the files of the finished acquisition stays stored.", "quantifier": "every history of messages, commands and frames, every setting of the next acquisition", "why_tests_cant": "depends on combinations of old and new paths, names and ids", "anchors": ["cpp/frameProcessor/src/FileWriterPlugin.cpp:stop_acquisition", "cpp/frameProcessor/src/FileWriterPlugin.cpp:start_writing", "cpp/frameProcessor/src/Acquisition.cpp:generate_filename"]}
{"id": "C56", "title": "Start and stop commands do what they say", "statement": "A start command while writing changes nothing of the running acquisition; otherwise it starts an acquisition with exactly the settings made for the next one, zero counters, and uses those settings up; without a name nothing is started. A stop command ends writing, keeps all stored data and the settings of the next acquisition, and is idempotent.", "quantifier": "every plugin state and environment", "why_tests_cant": "depends on the accumulated settings of every history", "anchors": ["cpp/frameProcessor/src/FileWriterPlugin.cpp:execute", "cpp/frameProcessor/src/FileWriterPlugin.cpp:start_writing", "cpp/frameProcessor/src/FileWriterPlugin.cpp:stop_writing"]}
{"id": "C57", "title": "The close file timeout ends an incomplete acquisition", "statement": "If the last frame arrives while frames are missing and then no frame arrives for the timeout period, the acquisition is ended; a disarmed timer never ends one.", "quantifier": "every history", "why_tests_cant": "timing and uninitialised memory", "anchors": ["cpp/frameProcessor/src/FileWriterPlugin.cpp:run_close_file_timeout", "cpp/frameProcessor/src/FileWriterPlugin.cpp:start_close_file_timeout"]}
{"id": "C58", "title": "Kafka counters account for every frame", "statement": "The Kafka producer passes every frame on; frames_sent counts exactly the messages handed to the library, and sent plus lost equals the number of frames of the dataset whose header could be built.", "quantifier": "every frame sequence and every pattern of producer failures", "why_tests_cant": "needs all histories and failures", "anchors": ["cpp/frameProcessor/src/KafkaProducerPlugin.cpp:process_frame", "cpp/frameProcessor/src/KafkaProducerPlugin.cpp:enqueue_frame"]}
{"id": "C59", "title": "The output image of the dummy process plugin is the frame payload", "statement": "The image of the frame pushed by the dummy process plugin lies inside the frame and consists of the first width*height*2 bytes of the payload after blanking.", "quantifier": "every configuration, header and payload", "why_tests_cant": "sizes configured independently of the frame", "anchors": ["cpp/frameProcessor/src/DummyUDPProcessPlugin.cpp:process_frame"]}
{"id": "C60", "title": "The data size of a frame never exceeds its memory", "statement": "Whatever sequence of constructions, copies, assignments and destructions, the size a frame reports lies within the block it owns.", "quantifier": "every history of frame operations", "why_tests_cant": "needs histories of copies and assignments between sizes", "anchors": ["cpp/frameProcessor/src/Frame.cpp:operator=", "cpp/frameProcessor/src/DataBlockFrame.cpp:operator="]}
{"id": "C61", "title": "A complete frame does not stay in the decoder", "statement": "As soon as all packets of a frame that has a buffer have arrived, the frame is handed on as complete.", "quantifier": "every packet and timeout sequence without duplicates and late packets", "why_tests_cant": "needs a frame refused a buffer between two packets of another frame", "anchors": ["cpp/frameReceiver/src/DummyUDPFrameDecoder.cpp:process_packet", "cpp/frameReceiver/src/DummyUDPFrameDecoder.cpp:process_packet_header"]}
{"id": "C62", "title": "Encoding and decoding a message round trip", "statement": "A message with a legal type, value, id and time stamp encodes to a document that strict decoding accepts and that gives the same type, value, id, time stamp and parameters; strict decoding accepts only complete and legal messages.", "quantifier": "every message and every document", "why_tests_cant": "all documents", "anchors": ["cpp/common/src/IpcMessage.cpp:encode", "cpp/common/src/IpcMessage.cpp:IpcMessage"]}
{"id": "C63", "title": "Updating a message from another one takes over exactly its parameters", "statement": "After update(other) every parameter of the other message has the value it has there and every other parameter is unchanged.", "quantifier": "every pair of messages", "why_tests_cant": "all names and trees", "anchors": ["cpp/common/src/IpcMessage.cpp:update", "cpp/common/include/IpcMessage.h:set_param"]}
{"id": "C64", "title": "Complete configuration is reported only when complete", "statement": "The receiver reports configuration_complete only while its channels, decoder, shared memory and receiver thread are all configured.", "quantifier": "every history of configure commands, requests and released frames, every outcome of loading, creating and starting", "why_tests_cant": "needs refused commands after a complete configuration", "anchors": ["cpp/frameReceiver/src/FrameReceiverController.cpp:configure", "cpp/frameReceiver/src/FrameReceiverController.cpp:get_status"]}
{"id": "C65", "title": "Selecting another decoder replaces its configuration", "statement": "A configure command that selects another decoder class together with a decoder configuration leaves exactly the new configuration; nothing of the old decoder's parameters is passed to the new one.", "quantifier": "every pair of configurations", "why_tests_cant": "order of storing and comparing parameters", "anchors": ["cpp/frameReceiver/src/FrameReceiverController.cpp:configure_frame_decoder"]}
{"id": "C66", "title": "The receiver stops after exactly the configured number of frames", "statement": "The receiver stops when the configured number of frames has been released, not earlier and not later, and never when no number was configured.", "quantifier": "every history of configure commands and released frames", "why_tests_cant": "depends on uninitialised memory", "anchors": ["cpp/frameReceiver/src/FrameReceiverController.cpp:handle_frame_release_channel", "cpp/frameReceiver/include/FrameReceiverConfig.h:frame_count_"]}
{"id": "C67", "title": "Requests read no uninitialised data", "statement": "Status and configuration requests report only values that have been set.", "quantifier": "every receiver state", "why_tests_cant": "depends on uninitialised memory", "anchors": ["cpp/frameReceiver/src/FrameReceiverController.cpp:get_status", "cpp/frameReceiver/src/FrameReceiverController.cpp:request_configuration"]}
{"id": "C68", "title": "Only registered channels are called back", "statement": "In every round of the event loop exactly the channels with input are called back, once each, and a channel that has been removed is not called back any more.", "quantifier": "every sequence of registrations, removals and rounds, every behaviour of the callbacks", "why_tests_cant": "callbacks that remove other channels", "anchors": ["cpp/common/src/IpcReactor.cpp:run", "cpp/common/src/IpcReactor.cpp:rebuild_pollitems", "cpp/common/src/IpcReactor.cpp:remove_channel"]}
{"id": "C69", "title": "The event loop never hangs and ends on request", "statement": "No round of the event loop hangs, whatever reactor operations the callbacks perform; after a stop request no further round begins; otherwise the loop is left only when no channel and no timer is registered.", "quantifier": "every state and every behaviour of the callbacks", "why_tests_cant": "callbacks that use the reactor from within", "anchors": ["cpp/common/src/IpcReactor.cpp:run", "cpp/common/src/IpcReactor.cpp:register_timer", "cpp/common/src/IpcReactor.cpp:stop"]}
{"id": "C70", "title": "Constructing a watchdog returns", "statement": "In every interleaving of the constructor with the worker thread it starts, no member is used before its initialisation and the constructor can return.", "quantifier": "every schedule", "why_tests_cant": "race at start-up", "anchors": ["cpp/frameProcessor/src/WatchdogTimer.cpp:WatchdogTimer", "cpp/frameProcessor/include/WatchdogTimer.h"]}
{"id": "C71", "title": "The watchdog watches every call", "statement": "For every sequence of timed calls the watchdog stays alive until stopped, reads no uninitialised data, and reports a call with a timeout exactly if it lasts longer: at most once, never before the timeout, never after its end.", "quantifier": "every sequence of calls, timeouts and clock values", "why_tests_cant": "depends on uninitialised memory and timing", "anchors": ["cpp/frameProcessor/src/WatchdogTimer.cpp:start_timer", "cpp/frameProcessor/src/WatchdogTimer.cpp:finish_timer"]}
{"id": "C72", "title": "Timers of a reactor have different identifiers", "statement": "Two timers registered with the same reactor never get the same identifier.", "quantifier": "every interleaving of registrations with any number of reactors", "why_tests_cant": "data race", "anchors": ["cpp/common/src/IpcReactor.cpp:IpcReactorTimer", "cpp/common/src/IpcReactor.cpp:register_timer"]}
{"id": "C73", "title": "Plugins are connected as requested", "statement": "After any sequence of load, connect, disconnect and endpoint requests a plugin gets each frame of another one exactly once if it was connected and not disconnected since, and not at all otherwise; no request uses a null pointer.", "quantifier": "every sequence of requests", "why_tests_cant": "histories of requests in any order", "anchors": ["cpp/frameProcessor/src/FrameProcessorController.cpp:connectPlugin", "cpp/frameProcessor/src/FrameProcessorController.cpp:disconnectPlugin", "cpp/frameProcessor/src/FrameProcessorController.cpp:setupFrameReceiverInterface"]}
{"id": "C74", "title": "Frames pass through the plugins without loss, duplication or reordering", "statement": "Every frame pushed by a plugin comes to every plugin connected to it exactly once and in the order pushed, and to no other; in a tree of plugins each plugin processes, in order, the one sequence determined by the frames received and the plugins before it.", "quantifier": "every network of plugins that does not change meanwhile, every behaviour of the plugins, every schedule", "why_tests_cant": "all schedules and networks", "anchors": ["cpp/frameProcessor/src/FrameProcessorPlugin.cpp:push", "cpp/frameProcessor/src/IFrameCallback.cpp:workerTask", "cpp/frameProcessor/include/WorkQueue.h"]}
{"id": "C75", "title": "The end of an acquisition reaches every plugin once and after all its frames", "statement": "For plugins connected without a cycle, when everything is done each connected plugin has processed the end of the acquisition exactly once, and no frame of the acquisition after it.", "quantifier": "every acyclic network and schedule", "why_tests_cant": "two paths of different length to the same plugin", "anchors": ["cpp/frameProcessor/src/FrameProcessorPlugin.cpp:callback", "cpp/frameProcessor/src/SharedMemoryController.cpp:injectEOA"]}
{"id": "C76", "title": "A plugin is not destroyed while its thread runs", "statement": "When shutdown destroys the plugins, the worker thread of none of them is still running.", "quantifier": "every number of plugins, every content of the queues, every schedule", "why_tests_cant": "race between main thread and workers", "anchors": ["cpp/frameProcessor/src/FrameProcessorController.cpp:shutdown", "cpp/frameProcessor/src/IFrameCallback.cpp:isWorking", "cpp/frameProcessor/src/IFrameCallback.cpp:workerTask"]}
{"id": "C77", "title": "A shutdown completes", "statement": "Once begun, a shutdown completes whatever the plugins are doing and however many frames are queued.", "quantifier": "every number of plugins, every content of the queues, every schedule", "why_tests_cant": "needs a backlog at the moment of the shutdown", "anchors": ["cpp/frameProcessor/src/FrameProcessorController.cpp:shutdown", "cpp/frameProcessor/src/FrameProcessorController.cpp:callback", "cpp/frameProcessor/src/IFrameCallback.cpp:stop", "cpp/frameProcessor/include/WorkQueue.h:add"]}
{"id": "C78", "title": "The configuration file is applied", "statement": "Every configuration in the configuration file given to the processor is applied, in order, whether the file holds one object or an array.", "quantifier": "every configuration file", "why_tests_cant": "two document shapes", "anchors": ["cpp/frameProcessor/src/FrameProcessorApp.cpp:configure_controller"]}
{"id": "C79", "title": "The processor shuts down after the number of frames asked for", "statement": "The controller shuts down when the number of frames asked for has been processed, not earlier and not later, and never when none was asked for.", "quantifier": "every sequence of configurations and frames", "why_tests_cant": "depends on uninitialised memory", "anchors": ["cpp/frameProcessor/src/FrameProcessorController.cpp:callback", "cpp/frameProcessor/include/FrameProcessorController.h:shutdownFrameCount"]}
{"id": "C81", "title": "An update of bound parameters stores the values given or changes nothing", "statement": "An update that succeeds gives every bound parameter present in the document exactly the value there; an update that throws changes no parameter.", "quantifier": "every binding and document", "why_tests_cant": "all documents, failures at every position", "anchors": ["cpp/common/src/ParamContainer.cpp:update", "cpp/common/src/ParamContainer.cpp:set_value", "cpp/common/include/ParamContainer.h:vector_param_set"]}
{"id": "C82", "title": "Replaying sends every packet once, in order, to the right port", "statement": "Replaying sends every packet that is not dropped once and in order, and the packets of the k-th replayed frame go to port k modulo the number of ports.", "quantifier": "every list of stored frames, choice of dropped packets, number of ports and rounds", "why_tests_cant": "all combinations of options", "anchors": ["cpp/frameSimulator/src/FrameSimulatorPluginUDP.cpp:replay_frames", "cpp/frameSimulator/src/FrameSimulatorPluginUDP.cpp:send_packet"]}
{"id": "C83", "title": "Every frame all of whose packets arrive is handed on", "statement": "If no packet arrives twice, no frame times out and there are as many buffers as frames, then for every interleaving of the packets of all frames exactly the frames all of whose packets have arrived have been handed on, each once, as complete and with its own payloads.", "quantifier": "every number of frames and packets, every order and time of arrival, buffers coming back at any time", "why_tests_cant": "all interleavings of many frames", "anchors": ["cpp/frameReceiver/src/DummyUDPFrameDecoder.cpp:process_packet_header", "cpp/frameReceiver/src/DummyUDPFrameDecoder.cpp:process_packet"]}
{"id": "C84", "title": "A changed setting of the receiver takes effect", "statement": "If an acknowledged configure command has changed a setting of the frame decoder (path, type, parameters) a decoder is loaded; if it has changed the name or size of the shared memory and there is a decoder the memory is created anew; if it has changed the RX endpoint, type, address, buffer size or ports and there are a decoder and shared memory a receiver thread is started, as the last step.", "quantifier": "every state of the controller, every configure message, every behaviour of the plugins and sockets", "why_tests_cant": "The restart is decided by flags set in a dozen places; a missing one shows only for one setting changed alone.", "anchors": ["cpp/frameReceiver/src/FrameReceiverController.cpp: configure_ipc_channels, configure_frame_decoder, configure_buffer_manager, configure_rx_thread"]}
{"id": "C85", "title": "An acknowledged configuration is stored", "statement": "After an acknowledged configure command every setting named in it has the value given and every other setting its old value.", "quantifier": "every reachable state of the controller and every configure message", "why_tests_cant": "Tests configure a few settings once; the frame count 0 (unlimited) after another one is not tried.", "anchors": ["cpp/frameReceiver/src/FrameReceiverController.cpp: configure", "cpp/frameReceiver/include/FrameReceiverConfig.h: FrameReceiverConfig"]}
{"id": "C86", "title": "A frame buffer is never in use twice", "statement": "With one frame processor, at every moment every buffer is in at most one place: in the queue of empty buffers, being filled, in a message between receiver thread and controller, announced, held by the processor, or in a release message; and it is a buffer of the current shared memory.", "quantifier": "every interleaving of receiver thread, controller and processor, every number of buffers, any restarts and reconfigurations", "why_tests_cant": "needs restarts while buffers are in use and a particular order of messages", "anchors": ["cpp/frameReceiver/src/FrameReceiverRxThread.cpp:run_service", "cpp/frameReceiver/src/FrameReceiverRxThread.cpp:handle_rx_channel", "cpp/frameReceiver/src/FrameReceiverController.cpp:precharge_buffers", "cpp/frameReceiver/src/FrameReceiverController.cpp:handle_frame_release_channel", "cpp/frameReceiver/src/FrameReceiverController.cpp:configure_buffer_manager"]}
{"id": "C87", "title": "No frame buffer is lost", "statement": "With one frame processor, whenever no message is under way and no buffer is in use, the decoder has every buffer of the shared memory exactly once; and from every state with a running thread that situation can be reached by handling the messages and finishing the frames.", "quantifier": "every interleaving of receiver thread, controller and processor, every number of buffers, any restarts and reconfigurations", "why_tests_cant": "needs a release to cross a restart", "anchors": ["cpp/frameReceiver/src/FrameReceiverController.cpp:stop_rx_thread", "cpp/frameReceiver/src/FrameReceiverController.cpp:handle_frame_release_channel", "cpp/frameReceiver/src/FrameReceiverRxThread.cpp:run_service"]}
{"id": "C88", "title": "Frames received over TCP are stored whole and handed on", "statement": "However the bytes of the frames are cut into reads, each frame is stored whole and in order, in the buffers in turn, and every stored frame is handed on.", "quantifier": "every frame size, number of buffers and sockets, every division of the stream into reads", "why_tests_cant": "all divisions of a stream, closed connections and interrupted reads", "anchors": ["cpp/frameReceiver/src/FrameReceiverTCPRxThread.cpp:handle_receive_socket", "cpp/frameReceiver/src/DummyTCPFrameDecoder.cpp:get_next_message_buffer", "cpp/frameReceiver/src/DummyTCPFrameDecoder.cpp:process_message"]}
{"id": "C89", "title": "Starting the receiver thread waits for it", "statement": "Starting the receiver thread succeeds if the thread comes up, and fails if the thread reports an error or is not up after 1000 attempts, a millisecond apart.", "quantifier": "every sequence of observations of the thread's flags", "why_tests_cant": "depends on how fast the thread comes up", "anchors": ["cpp/frameReceiver/src/FrameReceiverRxThread.cpp:start"]}
{"id": "C90", "title": "A stopped receiver thread leaves no socket open", "statement": "A receiver thread that has been started and stopped, whether or not it came up, leaves the open sockets of the process as they were.", "quantifier": "every list of ports, every failure of a socket call, every set of ports in use", "why_tests_cant": "needs failing socket calls and a second configuration", "anchors": ["cpp/frameReceiver/src/FrameReceiverRxThread.cpp:run_service", "cpp/frameReceiver/src/FrameReceiverUDPRxThread.cpp:run_specific_service"]}
{"id": "C91", "title": "The place of a syntax error in the configuration file is shown", "statement": "For every configuration file with a syntax error the message names the line of the error and shows the text before it, and producing the message does not fail.", "quantifier": "every text and every position of the error", "why_tests_cant": "depends on where in the file the error is", "anchors": ["cpp/common/include/stringparse.h:extract_substr_at_pos", "cpp/frameProcessor/src/FrameProcessorApp.cpp:configure_controller", "cpp/frameReceiver/src/FrameReceiverApp.cpp:run"]}
{"id": "C92", "title": "The time a call has taken is measured", "statement": "For any two clock readings, the second not before the first, the duration computed is within two microseconds of the difference.", "quantifier": "every pair of clock readings before 2038", "why_tests_cant": "rounding of doubles and durations of more than an hour", "anchors": ["cpp/common/include/gettime.h:elapsed_us", "cpp/frameProcessor/src/FrameProcessorPlugin.cpp:callback"]}
{"id": "C93", "title": "The statistics of call durations are those of the calls", "statement": "After every sequence of calls and resets the last and the longest duration reported are those of the calls since the last reset, and the mean reported lies between the shortest and the longest; all are 0 if there was no call.", "quantifier": "every sequence of calls and resets from construction, every initial content of the memory", "why_tests_cant": "depends on uninitialised memory", "anchors": ["cpp/frameProcessor/src/CallDuration.cpp:update", "cpp/frameProcessor/src/CallDuration.cpp:reset", "cpp/frameProcessor/include/CallDuration.h"]}
{"id": "C80", "title": "The frame processor's controller comes up", "statement": "Constructing the controller never uses an object before its construction or through a null pointer, can always still return, and when it has returned the event loop has its timer and the channel for meta data.", "quantifier": "every schedule of the constructing thread and the new thread", "why_tests_cant": "depends on the order in which two threads run within microseconds", "anchors": ["cpp/frameProcessor/src/FrameProcessorController.cpp:FrameProcessorController", "cpp/frameProcessor/src/FrameProcessorController.cpp:runIpcService", "cpp/frameProcessor/src/FrameProcessorController.cpp:setupMetaRxInterface", "cpp/frameProcessor/include/FrameProcessorController.h"]}
{"id": "C94", "title": "Control messages are attributed to their senders", "statement": "Every message that arrives on a control channel is handled once, with the identity of its sender, and no handler blocks, however many parts the messages have.", "quantifier": "every sequence of messages of any number of clients, each of at least one part", "why_tests_cant": "test clients send single-part messages", "anchors": ["cpp/common/src/IpcChannel.cpp:recv"]}
{"id": "C95", "title": "The random identity of a channel fits its buffer", "statement": "For all values of random() the identity written for a DEALER socket fits the ten characters reserved for it.", "quantifier": "all pairs of values of random()", "why_tests_cant": "happens once in 17 million channels", "anchors": ["cpp/common/src/IpcChannel.cpp:IpcChannel", "cpp/common/src/IpcChannel.cpp:within"]}
{"id": "C96", "title": "A channel knows what it is bound to", "statement": "After every sequence of bind and unbind the addresses a socket listens on are those recorded in its map of endpoints.", "quantifier": "every sequence of binds and unbinds of every endpoint, with every outcome of ZeroMQ", "why_tests_cant": "needs wildcard endpoints bound repeatedly, or very long addresses", "anchors": ["cpp/common/src/IpcChannel.cpp:bind", "cpp/common/src/IpcChannel.cpp:unbind", "cpp/common/src/IpcChannel.cpp:has_bound_endpoint"]}
{"id": "C97", "title": "The frame processor listens only where it is configured to", "statement": "After every sequence of configured endpoints the control (or meta data) channel of the frame processor is bound to the last one only.", "quantifier": "every sequence of distinct endpoints", "why_tests_cant": "tests configure an endpoint once", "anchors": ["cpp/frameProcessor/src/FrameProcessorController.cpp:setupControlInterface", "cpp/frameProcessor/src/FrameProcessorController.cpp:setupMetaTxInterface"]}
{"id": "C98", "title": "Every part received over ZeroMQ reaches the decoder", "statement": "Each part of each message is copied into the decoder's buffer and processed once, in order, the end of each message is told once, and nothing is written outside the buffer.", "quantifier": "every sequence of messages of any number of parts of any sizes, every size of buffer", "why_tests_cant": "memory corruption shows up elsewhere or not at all", "anchors": ["cpp/frameReceiver/src/FrameReceiverZMQRxThread.cpp:handle_receive_socket", "cpp/common/src/IpcChannel.cpp:recv_raw", "cpp/common/src/IpcChannel.cpp:eom"]}
{"id": "C99", "title": "Every meta data message is published once", "statement": "Of every plugin the messages published are those it asked to publish, once each and in order, up to what is still under way; none is lost.", "quantifier": "every interleaving of any number of plugins publishing and the controller forwarding", "why_tests_cant": "needs a controller busy for as long as the pipe takes to fill", "anchors": ["cpp/frameProcessor/src/MetaMessagePublisher.cpp:publish_meta", "cpp/frameProcessor/src/FrameProcessorController.cpp:handleMetaRxChannel"]}
{"id": "C100", "title": "All threads use the same pool of blocks", "statement": "Whatever the schedule, all threads that ask for memory blocks of a size are given the same pool.", "quantifier": "every schedule of any number of threads", "why_tests_cant": "depends on threads asking for their first block within nanoseconds", "anchors": ["cpp/frameProcessor/src/DataBlockPool.cpp:instance", "cpp/frameProcessor/src/DataBlockPool.cpp:take", "cpp/frameProcessor/src/DataBlockPool.cpp:release"]}
{"id": "C101", "title": "The image of a frame lies inside its data", "statement": "After construction and any calls of the setters the image (offset and size) of a frame lies inside its data.", "quantifier": "all sizes and offsets of the parameter types, every sequence of calls of the setters", "why_tests_cant": "tests use small frames", "anchors": ["cpp/frameProcessor/src/Frame.cpp:Frame", "cpp/frameProcessor/src/Frame.cpp:set_data_size", "cpp/frameProcessor/src/Frame.cpp:set_image_size", "cpp/frameProcessor/src/Frame.cpp:set_image_offset"]}
{"id": "C102", "title": "Plugins connected without a cycle never block each other", "statement": "While any frame is left in a queue or to be delivered some thread can go on, and in a tree of plugins every schedule ends, with everything processed, after a number of steps bounded by the frames to process.", "quantifier": "every acyclic network of plugins, every behaviour of the plugins, every schedule", "why_tests_cant": "all schedules and networks", "anchors": ["cpp/frameProcessor/src/FrameProcessorPlugin.cpp:push", "cpp/frameProcessor/src/IFrameCallback.cpp:workerTask", "cpp/frameProcessor/include/WorkQueue.h"]}
{"id": "C103", "title": "A status reply is complete", "statement": "For every set of plugins the status reply lists the names of all of them, and holds everything each of them reports, their durations, all errors and all warnings, in the order of the plugins.", "quantifier": "every set of plugins with any names, any reported values, errors and warnings", "why_tests_cant": "depends on names and on what all plugins report together", "anchors": ["cpp/frameProcessor/src/FrameProcessorController.cpp:provideStatus", "cpp/frameProcessor/src/FrameProcessorPlugin.cpp:add_performance_stats", "cpp/common/include/IpcMessage.h:set_param"]}
{"id": "C104", "title": "A version reply holds all versions", "statement": "The reply to a version request holds the version of the application and the version of every plugin.", "quantifier": "every set of plugins with any names and versions", "why_tests_cant": "depends on names", "anchors": ["cpp/frameProcessor/src/FrameProcessorController.cpp:provideVersion", "cpp/frameProcessor/src/FrameProcessorPlugin.cpp:version"]}
{"id": "C105", "title": "All commands of all plugins are offered", "statement": "The reply to a request for commands holds, for every plugin, exactly its commands, in order.", "quantifier": "every set of plugins with any names and commands", "why_tests_cant": "depends on names; the plugins of the code offer few commands", "anchors": ["cpp/frameProcessor/src/FrameProcessorController.cpp:requestCommands"]}
{"id": "C106", "title": "An acknowledged command was executed", "statement": "If a request with commands is acknowledged then every command in it was executed; a command that one plugin refuses does not keep other plugins from executing theirs.", "quantifier": "all messages, all sets of plugins, all behaviours of the plugins", "why_tests_cant": "all messages", "anchors": ["cpp/frameProcessor/src/FrameProcessorController.cpp:execute", "cpp/frameProcessor/src/FrameProcessorPlugin.cpp:execute"]}
{"id": "C107", "title": "A reset of the statistics reaches every plugin", "statement": "A request to reset the statistics resets every plugin once, whether or not others fail, and is refused exactly if one failed.", "quantifier": "every number of plugins and every outcome", "why_tests_cant": "failures of reset_statistics do not occur in the plugins of the code", "anchors": ["cpp/frameProcessor/src/FrameProcessorController.cpp:resetStatistics"]}
{"id": "C108", "title": "The reported configuration restores a plugin", "statement": "For the offset adjustment, dummy, Blosc and gap filling plugins: if a plugin of the same name is sent what another one reports as its configuration, it accepts it and is then configured as the other one.", "quantifier": "every state the plugins can be in, every name of at least two characters without slash and not ending in [], and (except for empty vectors) every earlier configuration", "why_tests_cant": "all states", "anchors": ["cpp/frameProcessor/src/OffsetAdjustmentPlugin.cpp:requestConfiguration", "cpp/frameProcessor/src/DummyUDPProcessPlugin.cpp:requestConfiguration", "cpp/frameProcessor/src/BloscPlugin.cpp:requestConfiguration", "cpp/frameProcessor/src/BloscPlugin.cpp:configure", "cpp/frameProcessor/src/GapFillPlugin.cpp:requestConfiguration", "cpp/common/include/IpcMessage.h:set_param"]}
{"id": "C109", "title": "Reported parameter adjustments restore the plugin", "statement": "A new parameter adjustment plugin that is sent what another one reports has the same adjustments and inputs.", "quantifier": "every state reached by any sequence of configuration messages, every name as in C108", "why_tests_cant": "all sets of parameters", "anchors": ["cpp/frameProcessor/src/ParameterAdjustmentPlugin.cpp:configure", "cpp/frameProcessor/src/ParameterAdjustmentPlugin.cpp:requestConfiguration"]}
{"id": "C110", "title": "The reported configuration restores the Kafka plugin", "statement": "A new Kafka plugin accepts what another one reports and has the same servers, topic, partition, dataset and choice of parameters.", "quantifier": "every state reached by any sequence of configuration messages, every name as in C108, every set of servers the library accepts", "why_tests_cant": "the report is not sent back by any test", "anchors": ["cpp/frameProcessor/src/KafkaProducerPlugin.cpp:configure", "cpp/frameProcessor/src/KafkaProducerPlugin.cpp:requestConfiguration"]}
{"id": "C111", "title": "The Kafka plugin uses the servers and the topic given last", "statement": "After every sequence of configuration messages the servers and the topic reported are those given last, and if there is a producer it uses that topic.", "quantifier": "every sequence of messages, every set of servers the library accepts", "why_tests_cant": "depends on the order of messages and on failures of the library", "anchors": ["cpp/frameProcessor/src/KafkaProducerPlugin.cpp:configure_kafka_servers", "cpp/frameProcessor/src/KafkaProducerPlugin.cpp:configure_kafka_topic", "cpp/frameProcessor/src/KafkaProducerPlugin.cpp:destroy_kafka"]}
{"id": "C112", "title": "The reported configuration restores the live view", "statement": "A new live view plugin that is sent what another one reports has the same rates, filters and address.", "quantifier": "every state reached by any sequence of configuration messages, every name as in C108, every set of addresses that can be bound", "why_tests_cant": "the report is not sent back by any test", "anchors": ["cpp/frameProcessor/src/LiveViewPlugin.cpp:configure", "cpp/frameProcessor/src/LiveViewPlugin.cpp:requestConfiguration", "cpp/frameProcessor/src/LiveViewPlugin.cpp:set_socket_addr_config"]}
{"id": "C113", "title": "Lists of datasets and tags are read as written", "statement": "A text of names separated by commas, with any blanks around the names, is read as exactly these names; blanks inside a name stay.", "quantifier": "every number of names without commas, every amount of blanks around them", "why_tests_cant": "all texts", "anchors": ["cpp/frameProcessor/src/LiveViewPlugin.cpp:set_dataset_name_config", "cpp/frameProcessor/src/LiveViewPlugin.cpp:set_tagged_filter_config"]}
{"id": "C114", "title": "The reported configuration restores the file writer", "statement": "A new file writer accepts what another one reports and has the same process, file and dataset settings, number of frames, identifier, master dataset and timeout.", "quantifier": "every state reached by any sequence of configuration messages while not writing, every name as in C108, every set of paths that can be written to", "why_tests_cant": "the report is not sent back by any test", "anchors": ["cpp/frameProcessor/src/FileWriterPlugin.cpp:configure", "cpp/frameProcessor/src/FileWriterPlugin.cpp:requestConfiguration", "cpp/frameProcessor/src/FileWriterPlugin.cpp:configure_process", "cpp/frameProcessor/src/FileWriterPlugin.cpp:configure_file", "cpp/frameProcessor/src/FileWriterPlugin.cpp:configure_dataset"]}
{"id": "C115", "title": "The index attributes of a dataset name its first and last frame", "statement": "If asked for, the attributes image_nr_low and image_nr_high of a dataset are the numbers of the first and of the last frame whose place is in its file.", "quantifier": "every rank, number of processes, frames per block, blocks per file, total number of frames and file number", "why_tests_cant": "depends on the combination of four numbers; tests look at one file of one process", "anchors": ["cpp/frameProcessor/src/Acquisition.cpp:create_file", "cpp/frameProcessor/src/HDF5File.cpp:create_dataset"]}
{"id": "C116", "title": "A written document reads back as itself", "statement": "The text the JSON writer produces for a document whose numbers are integers of 64 bits contains no NUL character and is read back as exactly that document.", "quantifier": "every document of any size and depth, with any bytes in its strings and names, and every stack that holds its depth", "why_tests_cant": "nesting, escapes and the limits of the integer types combine without bound", "anchors": ["cpp/common/include/rapidjson/writer.h:WriteString,Prefix", "cpp/common/include/rapidjson/reader.h:ParseValue,ParseNumber,ParseStringToStream", "cpp/common/include/rapidjson/document.h:Accept"]}
{"id": "C117", "title": "No text crashes the JSON reader", "statement": "There is a size of the stack with which every text is either read or refused.", "quantifier": "every text and every size of the stack", "why_tests_cant": "needs a text longer than the stack is deep, which no test sends", "anchors": ["cpp/common/include/rapidjson/reader.h:ParseValue,ParseArray,ParseObject", "cpp/common/src/IpcMessage.cpp:IpcMessage"]}
{"id": "C118", "title": "A message sent as text arrives as the same message", "statement": "A legal message with a params object is encoded as a text without NUL characters, and the strict constructor from that text makes a message of the same type, value, id, time stamp, params and other attributes.", "quantifier": "every message whose numbers are integers of 64 bits, of any size and depth, and every stack that holds it", "why_tests_cant": "as C116; tests compare a handful of messages", "anchors": ["cpp/common/src/IpcMessage.cpp:IpcMessage,encode", "cpp/common/include/rapidjson/writer.h:WriteString,Prefix", "cpp/common/include/rapidjson/reader.h:ParseValue,ParseNumber,ParseStringToStream"]}
{"id": "C119", "title": "The reader accepts exactly the JSON grammar", "statement": "A text is read as a document exactly if the JSON grammar (RFC 8259) says it denotes this document and the document is not deeper than the stack; so a text denotes at most one document and every other text is refused.", "quantifier": "every text, document and stack", "why_tests_cant": "an infinite language; tests try single texts", "anchors": ["cpp/common/include/rapidjson/reader.h:Parse,ParseValue,ParseNumber,ParseStringToStream,ParseHex4", "cpp/common/include/rapidjson/encodings.h:Encode"]}
{"id": "C120", "title": "A live viewer learns everything about a frame from its header", "statement": "The header sent before an image is a JSON text that gives the frame number, acquisition id, data type, image size, dataset name, compression, shape and those of the configured tags that the frame has.", "quantifier": "every frame and every list of tags", "why_tests_cant": "needs frame numbers beyond 32 bits, large images or odd names", "anchors": ["cpp/frameProcessor/src/LiveViewPlugin.cpp:pass_live_frame,add_json_member", "cpp/common/src/IpcChannel.cpp:send"]}
{"id": "C121", "title": "A Kafka consumer learns everything about a frame from its header", "statement": "The header of a message is a JSON text that gives the data size and type, frame number, acquisition id, compression, offset, dimensions and, if asked for, every parameter of the frame with its value.", "quantifier": "every frame, with any number of parameters, with and without parameters", "why_tests_cant": "needs NaN parameters, negative numbers or parameters of other types", "anchors": ["cpp/frameProcessor/src/KafkaProducerPlugin.cpp:create_message"]}
{"id": "C122", "title": "All HDF5 handles of a file are closed", "statement": "When an HDF5File object has been destroyed, every handle it opened (file, datasets, attributes, dataspaces, property lists) is closed, whichever of the HDF5 calls it made have failed.", "quantifier": "all sequences of calls of create_dataset, write_frame, write_parameter, start_swmr and close_file after create_file, and every choice, at each call, of which HDF5 library calls fail", "why_tests_cant": "needs a failure of each library call at each place; tests run on a working file system and do not count open handles", "anchors": ["cpp/frameProcessor/src/HDF5File.cpp: HDF5File::create_file, create_dataset, write_frame, write_parameter, close_file, ~HDF5File, handle_h5_error", "cpp/frameProcessor/src/Acquisition.cpp: Acquisition::create_file"]}
{"id": "C123", "title": "A failed extension of a dataset does not affect later frames", "statement": "Whatever library calls failed before, a frame written to a dataset of unlimited length is accepted once the HDF5 library works again.", "quantifier": "every sequence of frames with any failures of library calls, then any frame", "why_tests_cant": "needs a failing H5Dset_extent and a particular order of frames after it", "anchors": ["cpp/frameProcessor/src/HDF5File.cpp:extend_dataset,write_frame"]}
{"id": "C124", "title": "The parameters of a frame are stored with it", "statement": "A frame that is accepted has its image and each of its parameters that has a dataset stored at its place with the value given; a frame that is refused leaves nothing in the file; no memory outside an array is read.", "quantifier": "every file, every set of dataset definitions, every frame with any number of parameters of any types, and any failures of library calls", "why_tests_cant": "needs parameters of wrong types or datasets of wrong rank, and a look at the file after an error", "anchors": ["cpp/frameProcessor/src/Acquisition.cpp:process_frame", "cpp/frameProcessor/src/HDF5File.cpp:write_parameter", "cpp/frameProcessor/include/FrameMetaData.h:get_parameter"]}
{"id": "C125", "title": "The header of a meta data message reaches subscribers as given", "statement": "The first part published for a message is a JSON text with the plugin, the item, the type and the header, which is the document the header text denotes, or the header text itself if it denotes none; the second part is the data.", "quantifier": "every message with any bytes in its name, item, type, header and data, and every stack that holds the header", "why_tests_cant": "any bytes in five fields; tests publish a few fixed headers", "anchors": ["cpp/frameProcessor/src/FrameProcessorController.cpp:handleMetaRxChannel", "cpp/frameProcessor/src/MetaMessage.cpp:MetaMessage"]}
{"id": "C126", "title": "Subscribers read exactly what an acquisition tells", "statement": "For the start and the end of an acquisition, each file created or closed and each frame written, the parts published are JSON texts of exactly the documented members with exactly the values of the event, the acquisition id and the rank; different events are published differently.", "quantifier": "every acquisition id, path, rank, number of processes and frames, frame number, offset and duration", "why_tests_cant": "any bytes in ids and paths and any 64 bit numbers, through two writers and one reader", "anchors": ["cpp/frameProcessor/src/Acquisition.cpp:process_frame,create_file,close_file,start_acquisition,stop_acquisition,get_meta_header,get_create_meta_header", "cpp/common/src/Json.cpp:JsonDict", "cpp/frameProcessor/src/FrameProcessorController.cpp:handleMetaRxChannel"]}
{"id": "C127", "title": "The pixels of a frame read back from its dataset", "statement": "In every dataset that is created, each pixel of an uncompressed frame that was written, with an image of the size of a chunk of frames, is what a reader of the file gets at its coordinates, whatever was written before it and to other slots after it.", "quantifier": "every dataset definition of any number of dimensions, fixed or unlimited, any sequence of frames and any coordinates", "why_tests_cant": "needs chunk dimensions other than the default and a reader; any number of dimensions", "anchors": ["cpp/frameProcessor/src/HDF5File.cpp:create_dataset,write_frame,extend_dataset", "cpp/frameProcessor/src/Acquisition.cpp:validate_dataset_definition,check_frame_valid"]}
{"id": "C128", "title": "The Blosc filter is told the size of the data", "statement": "The size of the uncompressed data in the parameters of the Blosc filter is that of a chunk.", "quantifier": "every dataset definition that is created", "why_tests_cant": "32 bit arithmetic over any number of dimensions", "anchors": ["cpp/frameProcessor/src/HDF5File.cpp:create_dataset"]}
{"id": "C129", "title": "No exception of the file writer ends the process", "statement": "No frame, end of acquisition or timeout makes the file writer throw an exception out of the thread it runs in, which has no handler for it.", "quantifier": "every history of configuration messages, commands, frames, ends of acquisition and timeouts, every behaviour of HDF5", "why_tests_cant": "needs an acquisition started automatically at the moment the file cannot be created; terminates the test itself", "anchors": ["cpp/frameProcessor/src/IFrameCallback.cpp:workerTask", "cpp/frameProcessor/src/FrameProcessorPlugin.cpp:callback", "cpp/frameProcessor/src/FileWriterPlugin.cpp:process_frame,process_end_of_acquisition,stop_acquisition,frame_in_acquisition,run_close_file_timeout"]}
{"id": "C130", "title": "A plugin processes a frame as it was pushed to it", "statement": "What a plugin processes is what the plugin it is connected to has pushed, as it was then, whatever other plugins got the frame as well.", "quantifier": "every set of plugins of any kind, every way to connect them, every list of frames and every schedule of the threads", "why_tests_cant": "a race between the threads of two plugins connected to the same one; tests connect plugins in a line", "anchors": ["cpp/frameProcessor/src/FrameProcessorPlugin.cpp:push,callback", "cpp/frameProcessor/src/IFrameCallback.cpp:workerTask", "cpp/frameProcessor/src/OffsetAdjustmentPlugin.cpp:process_frame", "cpp/frameProcessor/src/ParameterAdjustmentPlugin.cpp:process_frame", "cpp/frameProcessor/src/SumPlugin.cpp:process_frame", "cpp/frameProcessor/src/DummyUDPProcessPlugin.cpp:process_frame,process_lost_packets"]}
{"id": "C131", "title": "What a frame says about its image is true", "statement": "If the bytes of a frame are, after undoing the compression it names, as many pixels of its data type as its dimensions have, the same holds of every frame that comes out of any sequence of the plugins of the repository.", "quantifier": "every sequence of plugins of any length with any settings, every frame of any size, and every compressor that can be undone", "why_tests_cant": "all combinations of plugins and settings; tests run each plugin alone", "anchors": ["cpp/frameProcessor/src/BloscPlugin.cpp:compress_frame", "cpp/frameProcessor/src/GapFillPlugin.cpp:process_frame,configuration_valid,insert_gaps", "cpp/frameProcessor/src/SumPlugin.cpp:process_frame", "cpp/frameProcessor/src/DummyUDPProcessPlugin.cpp:process_frame"]}
{"id": "C132", "title": "The image of a frame reads back from the file as the plugins made it", "statement": "A truthful frame that goes through any sequence of plugins to a file writer with a dataset of its type, dimensions and compression, and is written, reads back from the file as the image the same plugins make of it without compression.", "quantifier": "every sequence of plugins, every frame and dataset of any size, every slot, whatever is written to other slots before and after, every compressor that can be undone", "why_tests_cant": "compression, gap filling and HDF5 chunks combined, for any sizes", "anchors": ["cpp/frameProcessor/src/HDF5File.cpp:create_dataset,write_frame", "cpp/frameProcessor/src/BloscPlugin.cpp:compress_frame", "cpp/frameProcessor/src/GapFillPlugin.cpp:insert_gaps"]}
{"id": "C133", "title": "A frame is compressed as its plugin says", "statement": "With every compressor in the library, a frame is compressed with the level, shuffle, compressor and number of threads that the status of its compression plugin reports, however many such plugins there are.", "quantifier": "every number of plugins and every interleaving of loading, configuration messages and frames of any acquisitions", "why_tests_cant": "several plugins share settings of a library; tests use one", "anchors": ["cpp/frameProcessor/src/BloscPlugin.cpp:BloscPlugin,update_compression_settings,compress_frame,process_frame,configure,status"]}
{"id": "C134", "title": "No frame makes a plugin throw or leave its memory", "statement": "No frame that says the truth about its image, with an image not larger than what the compressor takes, makes a plugin in any sequence of the plugins of the repository throw an exception (which ends the process, as the plugin threads have no handler) or access memory outside its blocks.", "quantifier": "every sequence of plugins of any length with any settings, every truthful frame of any size up to the limit of the compressor, every compressor that can be undone and adds at most its documented overhead", "why_tests_cant": "crashes depend on the combination of sizes, settings and order of plugins; tests run each plugin alone with small images", "anchors": ["cpp/frameProcessor/src/IFrameCallback.cpp:workerTask", "cpp/frameProcessor/src/BloscPlugin.cpp:compress_frame", "cpp/frameProcessor/src/GapFillPlugin.cpp:process_frame,configuration_valid,insert_gaps", "cpp/frameProcessor/src/SumPlugin.cpp:calculate_sum"]}
{"id": "C135", "title": "The pixels that arrive are in the file", "statement": "If no packet is a duplicate or for a frame that has just timed out, then every byte of every packet that the receiver handed on with its frame is in the file, at the place of its pixel in the slot of its frame, for a reader of the file: through the decoder, the shared buffer, the process plugin of the dummy detector, the plugins behind it (compressing at most once) and the file writer.", "quantifier": "every receiver configuration, image size, sequence of packets, buffer monitor runs and buffer returns of any length and order, every way of plugins that keep or compress the image or fill gaps in it, every compressor that can be undone, every geometry of processes and blocks, one or several files, fixed and unlimited datasets", "why_tests_cant": "an end-to-end test sends a few frames in order over a loopback device; losses, reordering and time-outs in combination are not reproduced, and pixels are not compared", "anchors": ["cpp/frameReceiver/src/DummyUDPFrameDecoder.cpp:process_packet_header,get_next_payload_buffer,process_packet,monitor_buffers", "cpp/frameProcessor/src/DummyUDPProcessPlugin.cpp:process_frame,process_lost_packets", "cpp/frameProcessor/src/BloscPlugin.cpp:compress_frame", "cpp/frameProcessor/src/Acquisition.cpp:process_frame,check_frame_valid,adjust_frame_offset", "cpp/frameProcessor/src/OffsetAdjustmentPlugin.cpp:process_frame", "cpp/frameProcessor/src/HDF5File.cpp:write_frame"]}
{"id": "C136", "title": "Frames are read from the memory they were received in", "statement": "A frame processor reads every frame announced to it from the object of shared memory into which the receiver has put the frame, and never fails on opening the memory a receiver names.", "quantifier": "every order of configuration messages (obeyed or not), notifications, requests, frames and handled messages, of any length; any shared memory left by earlier processes", "why_tests_cant": "needs frames within the second between a configuration message and the deferred notification, or a particular order of configuration messages", "anchors": ["cpp/frameReceiver/src/FrameReceiverController.cpp:configure_frame_decoder,configure_buffer_manager,notify_buffer_config,stop_rx_thread", "cpp/frameReceiver/src/FrameDecoder.cpp:register_buffer_manager", "cpp/common/src/SharedBufferManager.cpp:SharedBufferManager,~SharedBufferManager", "cpp/frameProcessor/src/SharedMemoryController.cpp:handleRxChannel,setSharedBufferManager"]}
{"id": "C137", "title": "A plugin comes from the library asked for", "statement": "A command to load a plugin that gets a positive reply leaves at the given index a plugin of the given class, made by the given library.", "quantifier": "every set of libraries, whatever they register, and every sequence of commands to load plugins, of any length", "why_tests_cant": "tests load one class once from one library", "anchors": ["cpp/common/include/ClassLoader.h:load_class,is_registered,REGISTER", "cpp/frameProcessor/src/FrameProcessorController.cpp:loadPlugin", "cpp/frameReceiver/src/FrameReceiverController.cpp:configure_frame_decoder"]}
{"id": "C138", "title": "What a plugin works with is not changed meanwhile", "statement": "While one thread reads or changes a member of a plugin, no other thread changes it.", "quantifier": "every set of plugins and connections, every number of threads and of calls under way, and every order in which the threads run", "why_tests_cant": "races show only in rare schedules; tests call plugins from one thread", "anchors": ["cpp/frameProcessor/src/FrameProcessorPlugin.cpp:callback,push,register_callback,set_error", "cpp/frameProcessor/src/FileWriterPlugin.cpp:process_frame,process_end_of_acquisition,configure,execute,status,run_close_file_timeout", "cpp/frameProcessor/src/LiveViewPlugin.cpp:process_frame,configure", "cpp/frameProcessor/src/GapFillPlugin.cpp:configure", "cpp/frameProcessor/src/KafkaProducerPlugin.cpp:enqueue_frame,configure", "cpp/frameProcessor/src/BloscPlugin.cpp:process_frame", "cpp/frameProcessor/src/FrameProcessorController.cpp:handleCtrlChannel,provideStatus"]}
{"id": "C139", "title": "A live reader sees what was written a while ago", "statement": "A program that reads a file while it is written sees every value that was written into a dataset more than the flush period of parameters (a second) ago.", "quantifier": "every sequence of frames and parameter values written into a dataset, all times of writing, and all flushes that fail", "why_tests_cant": "depends on the times between writes, on the clock and on the library", "anchors": ["cpp/frameProcessor/src/HDF5File.cpp:write_frame,write_parameter,close_file", "cpp/frameProcessor/include/HDF5File.h:PARAM_FLUSH_RATE"]}
{"id": "C140", "title": "A capture file is replayed as it was captured", "statement": "If a capture file holds the datagrams of some frames, the simulator stores exactly these frames.", "quantifier": "every sequence of frames and packets, every way they are framed and captured, and any other traffic in the file", "why_tests_cant": "tests use no capture file", "anchors": ["cpp/frameSimulator/src/FrameSimulatorPluginUDP.cpp:setup,prepare_packets", "cpp/frameSimulator/src/DummyUDPFrameSimulatorPlugin.cpp:extract_frames", "cpp/common/include/DummyUDPDefinitions.h"]}
{"id": "C141", "title": "The simulator sends the number of frames asked for", "statement": "With a capture file the simulator sends as many frames as asked for, in turn, and for -1 all frames of the file once.", "quantifier": "every capture file, number of frames, number of ports, packet gap and choice of packets to drop", "why_tests_cant": "tests use no capture file; -1 is only documented", "anchors": ["cpp/frameSimulator/src/FrameSimulatorPluginUDP.cpp:replay_frames", "cpp/frameSimulator/include/FrameSimulatorOptions.h:opt_frames"]}
{"id": "C142", "title": "A signal ends the receiver", "statement": "After SIGINT or SIGTERM the receiver ends without a crash and without waiting for further input.", "quantifier": "every time at which the signal comes, every thread that handles it, every interleaving before and after it", "why_tests_cant": "the windows are a few instructions wide; which thread handles a signal is up to the system", "anchors": ["cpp/frameReceiver/src/FrameReceiverApp.cpp:main,intHandler,stop,run", "cpp/frameReceiver/src/FrameReceiverController.cpp:run,stop,stop_rx_thread", "cpp/common/src/IpcReactor.cpp:run,stop,calculate_timeout", "cpp/frameReceiver/src/FrameReceiverRxThread.cpp:run_service,tick_timer"]}
{"id": "C143", "title": "The end of one acquisition does not end another", "statement": "An end of acquisition ends the acquisition whose frames came before it, and no other.", "quantifier": "every history of configurations, commands, frames, ends of acquisition and timeouts", "why_tests_cant": "needs a second acquisition configured before the end of the first arrives", "anchors": ["cpp/frameProcessor/src/FileWriterPlugin.cpp:process_end_of_acquisition,stop_acquisition,frame_in_acquisition", "cpp/frameProcessor/src/EndOfAcquisitionFrame.cpp"]}
{"id": "C144", "title": "Acquisitions are started and stopped one after the other", "statement": "Each acquisition is started at most once, and stopped once before the next is started, whichever threads start and stop them.", "quantifier": "every number of threads, every interleaving of frames, ends of acquisition, commands, configurations and timeouts", "why_tests_cant": "needs two threads within a few instructions of each other", "anchors": ["cpp/frameProcessor/src/FileWriterPlugin.cpp:process_frame,process_end_of_acquisition,start_writing,stop_writing,frame_in_acquisition,stop_acquisition,run_close_file_timeout,execute"]}
{"id": "C145", "title": "Integers are printed exactly", "statement": "Every 32 or 64 bit integer, signed or unsigned, is printed into JSON as its decimal numeral without leading zeros, with a minus exactly if it is negative; no access is outside the table of digits and the buffers of 10, 11, 20 and 21 characters are large enough.", "quantifier": "all integers of the four types", "why_tests_cant": "two to the power of 64 values; the branches depend on the number of digits", "anchors": ["cpp/common/include/rapidjson/internal/itoa.h:u32toa,i32toa,u64toa,i64toa,GetDigitsLut"]}
{"id": "C146", "title": "JSON is written without leaving the buffer", "statement": "Whatever a string buffer held before, encoding a document into it fails no assertion, stores only into allocated memory, and the C string given to the caller is the text of the document.", "quantifier": "all documents of 64 bit integers, strings of up to 2^32 - 1 bytes, and other numbers of at most 25 characters; all earlier contents and capacities of the buffer", "why_tests_cant": "needs a string of 683 MiB; growth of the buffer depends on all earlier messages", "anchors": ["cpp/common/include/rapidjson/internal/stack.h:Reserve,Push,PushUnsafe,Pop,Expand,Resize", "cpp/common/include/rapidjson/stringbuffer.h:GetString,Put,PutUnsafe,Clear", "cpp/common/include/rapidjson/writer.h:WriteString,WriteInt,WriteUint,WriteInt64,WriteUint64,Prefix", "cpp/common/src/IpcMessage.cpp:encode"]}
{"id": "C147", "title": "The text of a floating point number denotes its digits", "statement": "For digits without a leading zero and a power of ten, the text written into JSON is a number of RFC 8259 that denotes exactly digits times power, negative exactly if the number is; it does not depend on what the buffer held, and uses at most the 25 characters that the writer reserves.", "quantifier": "all sequences of one to seventeen digits that do not begin with zero, all powers of ten from -324 with a decimal exponent below 1000, both signs, both zeros, all earlier contents of the buffer", "why_tests_cant": "five shapes of text, chosen by length and exponent; the longest text needs seventeen digits, a sign and five zeros", "anchors": ["cpp/common/include/rapidjson/internal/dtoa.h:WriteExponent,Prettify,dtoa", "cpp/common/include/rapidjson/writer.h:WriteDouble"]}
{"id": "C148", "title": "A printed double is the nearest to its text", "statement": "Every finite double is written into JSON as a number of at most seventeen significant digits and 25 characters, with a minus exactly if the sign bit is set, and every other double is further from the number that the text denotes; so no two doubles other than equal ones have the same text, and rounding the text to the nearest double gives the number back.", "quantifier": "all 64 bit patterns that are neither infinite nor NaN, all earlier contents of the buffer", "why_tests_cant": "about 2^64 doubles; errors of one unit in a cached power or product show for few of them", "anchors": ["cpp/common/include/rapidjson/internal/dtoa.h:GrisuRound,CountDecimalDigit32,DigitGen,Grisu2,dtoa", "cpp/common/include/rapidjson/internal/diyfp.h:DiyFp,NormalizedBoundaries,GetCachedPower,GetCachedPowerByIndex"]}
{"id": "C149", "title": "A double in a message is read back as it was written", "statement": "Every finite double is written as a text that ParseNumber reads as the same double, bit by bit, and not as an integer.", "quantifier": "all 64 bit patterns that are neither infinite nor NaN; for the reader all JSON numbers", "why_tests_cant": "about 2^64 doubles; a loss of the last bit shows only if the value is compared exactly after a round trip", "anchors": ["cpp/common/include/rapidjson/reader.h:ParseNumber", "cpp/common/include/rapidjson/internal/strtod.h:FastPath,StrtodNormalPrecision", "cpp/common/include/rapidjson/internal/pow10.h:Pow10", "cpp/common/include/rapidjson/internal/dtoa.h:dtoa"]}
{"id": "C150", "title": "A number in a message is refused or read as a finite number", "statement": "Reading a JSON number as a double either gives a finite double or reports that the number is too big; it never overflows an int and never leaves the table of powers of ten.", "quantifier": "all JSON numbers (RFC 8259) of any length", "why_tests_cant": "numbers at the edges of the range, with many zeros and a large negative exponent; a peer can send any of them", "anchors": ["cpp/common/include/rapidjson/reader.h:ParseNumber", "cpp/common/include/rapidjson/internal/strtod.h:FastPath,StrtodNormalPrecision", "cpp/common/include/rapidjson/internal/pow10.h:Pow10"]}
{"id": "C151", "title": "Values of a JSON document never share memory", "statement": "In every state of the pool allocator of a document, the blocks in use lie inside memory that the C library gave, apart from each other and from the headers of the chunks, aligned to eight bytes; each operation keeps their contents, a reallocated block keeps its bytes up to the smaller size, and an allocation of at least one byte fails only if the library refuses.", "quantifier": "all sequences of allocations, reallocations, writes and clears with sizes up to 2^62, and all addresses and refusals of the C library", "why_tests_cant": "the layout depends on the whole history of a document and on where malloc puts the chunks; an overlap shows only as a wrong value much later", "anchors": ["cpp/common/include/rapidjson/allocators.h:MemoryPoolAllocator::Malloc,Realloc,AddChunk,Clear", "cpp/common/include/rapidjson/rapidjson.h:RAPIDJSON_ALIGN"]}
{"id": "C152", "title": "JSON pointers are those of RFC 6901", "statement": "Every list of names has exactly one pointer text, which is parsed to these names; all other texts that begin with a slash are refused; the names fit into the memory allocated for them; Get finds the value that the names lead to, by the rules of RFC 6901 for members and array indices, and nothing where there is none.", "quantifier": "all texts, all lists of names and all documents with arrays of less than 2^28 elements", "why_tests_cant": "escapes, leading zeros, overflowing indices and names that look like numbers in all combinations", "anchors": ["cpp/common/include/rapidjson/pointer.h:GenericPointer::Parse,Get", "cpp/common/src/ParamContainer.cpp:update", "cpp/common/src/IpcMessage.cpp:copy_params"]}
{"id": "C153", "title": "Bound parameters do not overwrite each other when they are encoded", "statement": "If no path of a container is inside another one, every parameter is found at its path in the document that the container is encoded to, whatever was there before, and what is elsewhere in the document stays.", "quantifier": "all paths, prefixes, values and documents", "why_tests_cant": "paths with numbers become arrays, depending on what else is bound and on the order of the map", "anchors": ["cpp/common/src/ParamContainer.cpp:encode,update", "cpp/common/include/rapidjson/pointer.h:GenericPointer::Create,Set"]}
{"id": "C154", "title": "The exit status reports whether a program did what was asked", "statement": "Each program ends with status 0 if and only if its command line is understood and the information, the run or the simulation it asks for could be given, with every configuration of the file applied; it then does so, it never ends by std::terminate, and the simulator does not simulate with wrong options.", "quantifier": "all outcomes of parsing, of the configurations of a file of any length, and of the runs", "why_tests_cant": "failures of each step in combination, of which a test of the programs sees few", "anchors": ["cpp/frameProcessor/src/FrameProcessorApp.cpp:parse_arguments,run,configure_controller,main", "cpp/frameReceiver/src/FrameReceiverApp.cpp:parse_arguments,run,main", "cpp/frameSimulator/src/FrameSimulatorApp.cpp:parse_arguments,main"]}
{"id": "C155", "title": "A receiver thread listens as configured or reports an error", "statement": "A receiver thread that comes up has one socket for each configured port, at the configured address, with the configured size of the receive buffer and a decoder of its kind; if that is not possible it reports an error; it never ends the process.", "quantifier": "all configurations, any number of ports, and all failures of the operating system", "why_tests_cant": "three kinds of threads, failures of each call, limits of the operating system", "anchors": ["cpp/frameReceiver/src/FrameReceiverUDPRxThread.cpp:run_specific_service", "cpp/frameReceiver/src/FrameReceiverTCPRxThread.cpp:run_specific_service", "cpp/frameReceiver/src/FrameReceiverZMQRxThread.cpp:run_specific_service"]}
{"id": "C156", "title": "The simulator leaves the ports that it sends to to the receiver", "statement": "Whatever the simulator has sent before, a receiver comes up, and every packet goes to the receiver that listens at its port and to nobody else.", "quantifier": "all histories of packets and of receivers being started and stopped", "why_tests_cant": "depends on which of two programs is started first, and on the machine they run on", "anchors": ["cpp/frameSimulator/src/FrameSimulatorPluginUDP.cpp:send_packet", "cpp/frameReceiver/src/FrameReceiverUDPRxThread.cpp:run_specific_service"]}
{"id": "C157", "title": "A number or string in a JSON document is read back as what was stored, as exactly the types that can hold it", "statement": "A value of the JSON library is 16 bytes, in which a number, or the pointer to a string, or a short string lies over the flags that say what it is. A value made of an integer answers IsInt, IsUint, IsInt64 and IsUint64 exactly as the integer is in the range of the type, and each getter whose type fits returns it; a value made of a double returns the same 64 bits; a value made of a string, of 0 up to 2^32 - 1 characters with any characters in it, returns the same characters and length, for those stored in the value itself, in memory of the allocator, or by reference; and moving a value to another place keeps all of this and leaves null behind.", "quantifier": "all integers of 64 bits, all doubles, all strings and lengths, all contents of the memory before, all addresses below 2^48", "why_tests_cant": "The length of a short string is stored in the byte that ends it and the pointer shares its upper 16 bits with the flags; a wrong mask or offset shows only at lengths 13 and 14, at values near the limits of the types or at high addresses.", "anchors": ["cpp/common/include/rapidjson/document.h:GenericValue", "cpp/common/include/rapidjson/document.h:SetStringRaw", "cpp/common/include/rapidjson/document.h:ShortString", "cpp/common/include/rapidjson/document.h:RawAssign", "cpp/common/include/rapidjson/rapidjson.h:RAPIDJSON_SETPOINTER"]}
{"id": "C158", "title": "What is taken from a message or a parameter container does not refer to it", "statement": "A deep copy of a JSON value has the content of the original and refers only to its own allocator. What a parameter container puts into a document of someone else, and what copy_params takes from a message into a document, needs nothing but that document, and nothing undefined happens; a reference to a parameter of a message leads into this message, not into one that is gone.", "quantifier": "all values of any depth and size, with strings that are copied or referred to; all parameters; all allocators; all paths", "why_tests_cant": "A dangling reference is read correctly as long as the memory has not been used again; tests keep the container and the message alive until they have looked at the result.", "anchors": ["cpp/common/include/rapidjson/document.h:Accept", "cpp/common/include/rapidjson/document.h:CopyFrom", "cpp/common/include/rapidjson/document.h:EndObject", "cpp/common/src/ParamContainer.cpp:encode", "cpp/common/src/ParamContainer.cpp:get_value", "cpp/common/include/ParamContainer.h:vector_param_get", "cpp/common/src/IpcMessage.cpp:copy_params", "cpp/common/include/IpcMessage.h:get_param"]}
{"id": "C159", "title": "Arrays, objects and strings of a document hold what was put into them, however they grow between each other", "statement": "Whatever strings, arrays and objects are made in a JSON document and appended to with PushBack and AddMember, in any order, number and size, and wherever the C library puts the chunks of the memory pool, each one holds exactly the elements that were put into it, in their order, and no write goes outside its block. An operation fails only if the C library gives no memory.", "quantifier": "all sequences of operations on any number of values in one document, all answers of malloc, all element contents; fewer than 2^31 elements where more are appended", "why_tests_cant": "Growth in place is possible only for the last block of a chunk, and the order of operations decides who is last; tests build small documents in which nothing moves, or in which the old copy is still readable after a move.", "anchors": ["cpp/common/include/rapidjson/document.h:AddMember", "cpp/common/include/rapidjson/document.h:PushBack", "cpp/common/include/rapidjson/document.h:Reserve", "cpp/common/include/rapidjson/document.h:SetArrayRaw", "cpp/common/include/rapidjson/allocators.h:Realloc"]}
{"id": "C160", "title": "A buffer that a processor has finished with returns to the receiver, whatever its frame number and the level of the log", "statement": "For every frame number of 32 bits, every buffer number below 2^31 and every level of the log, a frame buffer that the receiver thread hands on as ready and that the processor releases comes back to the receiver thread: the frame ready notification passes the controller, the processor makes a frame from it, and the release notification that the destructor of the frame sends passes the controller again.", "quantifier": "all frame numbers below 2^32, all buffer numbers below 2^31, all log levels", "why_tests_cant": "The log statement is evaluated only at debug level 2 or more, and only frame numbers from 2^31 on change their type on the way; tests use small numbers, and a test of large ones without the log passes.", "anchors": ["cpp/frameReceiver/src/FrameReceiverController.cpp:handle_frame_release_channel", "cpp/frameReceiver/src/FrameReceiverController.cpp:handle_rx_channel", "cpp/frameReceiver/src/FrameReceiverRxThread.cpp:frame_ready", "cpp/frameProcessor/src/SharedBufferFrame.cpp:~SharedBufferFrame", "cpp/frameProcessor/src/SharedMemoryController.cpp:handleRxChannel"]}
{"id": "C161", "title": "The names of message types and values are known to every thread from its first message on", "statement": "However the lookups of message types and values by several threads of a program interleave, from the very first one on, each of them finds the entry of the table of names if there is one, reports an illegal name or value only if there is none, and does not throw.", "quantifier": "both tables, any number of threads, all names and values asked for, all interleavings of the accesses to the maps", "why_tests_cant": "The maps are filled at their first use, without a lock, and that takes microseconds at the start of a program; the tests of messages have one thread.", "anchors": ["cpp/common/src/IpcMessage.cpp:valid_msg_type", "cpp/common/src/IpcMessage.cpp:valid_msg_val", "cpp/common/src/IpcMessage.cpp:msg_type_map_init", "cpp/common/src/IpcMessage.cpp:msg_val_map_init", "cpp/frameReceiver/src/FrameReceiverRxThread.cpp:run_service"]}
{"id": "C162", "title": "No message between receiver and processor ends one of them", "statement": "Whatever texts arrive on the frame release channel of the receiver and on the frame ready channel of the processor, in whatever order with packets and reconfigurations of the shared memory, neither program is ended by an exception.", "quantifier": "all sequences of texts (as JSON documents or texts that do not parse), packets and reconfigurations with any number of buffers and any name", "why_tests_cant": "A number of a buffer that does not exist is queued without a check, and the exception comes only when the decoder reaches it, in another function; tests release only buffers of the current configuration.", "anchors": ["cpp/frameReceiver/src/FrameReceiverRxThread.cpp:handle_rx_channel", "cpp/frameReceiver/src/FrameReceiverController.cpp:handle_frame_release_channel", "cpp/frameReceiver/src/FrameDecoder.cpp:push_empty_buffer", "cpp/common/src/SharedBufferManager.cpp:get_buffer_address", "cpp/frameProcessor/src/SharedMemoryController.cpp:handleRxChannel"]}
{"id": "C163", "title": "Characters in JSON strings survive as UTF-8", "statement": "A string read from a JSON text in UTF-8 is, in UTF-8, exactly the characters that are written in it or denoted by its escapes (pairs of surrogates are one character), what follows it is still UTF-8, and the text written for a string in UTF-8 stands for its characters.", "quantifier": "all texts and all strings of Unicode characters, with every way of writing each of them", "why_tests_cant": "Escapes above 0x7F, surrogate pairs and halves of pairs are not in the tests, whose messages are in ASCII; the encoding has four ranges with their own arithmetic.", "anchors": ["cpp/common/include/rapidjson/encodings.h:UTF8::Encode", "cpp/common/include/rapidjson/reader.h:ParseStringToStream", "cpp/common/include/rapidjson/reader.h:ParseHex4", "cpp/common/include/rapidjson/writer.h:WriteString"]}
{"id": "C164", "title": "A frame gives what was last put into it, through all copies", "statement": "After any sequence of constructions, copies, assignments, transfers of meta data and calls of setters, every getter of every frame gives the value last set for that frame or copied into it, and no operation reads a member that has not been set.", "quantifier": "all histories over any number of frames, all values, all names of parameters", "why_tests_cant": "Members that a copy forgets or that are read before they are set hold whatever was in memory; tests look at one or two frames.", "anchors": ["cpp/frameProcessor/src/FrameMetaData.cpp:FrameMetaData", "cpp/frameProcessor/include/FrameMetaData.h:get_parameter", "cpp/frameProcessor/include/FrameMetaData.h:set_parameter", "cpp/frameProcessor/src/Frame.cpp:Frame", "cpp/frameProcessor/src/Frame.cpp:operator=", "cpp/frameProcessor/src/EndOfAcquisitionFrame.cpp:EndOfAcquisitionFrame"]}
{"id": "C165", "title": "Running out of memory does not lead to accesses outside of memory, and all memory is returned", "statement": "Whether or not the system has memory for a data block, a resized block, a meta message, an image with gaps, the buffer of the Blosc plugin or a message for Kafka, no memory is used or returned that does not belong to the object; every object has memory of its size for itself alone, and no other memory stays taken.", "quantifier": "all histories of operations on any number of objects, all sizes, every pattern of allocations that fail", "why_tests_cant": "Allocation never fails in a test, and a frame rate that is too high for the writer takes memory until there is none.", "anchors": ["cpp/frameProcessor/src/DataBlock.cpp:DataBlock", "cpp/frameProcessor/src/DataBlock.cpp:resize", "cpp/frameProcessor/src/DataBlock.cpp:copy_data", "cpp/frameProcessor/src/MetaMessage.cpp:MetaMessage", "cpp/frameProcessor/src/GapFillPlugin.cpp:insert_gaps", "cpp/frameProcessor/src/BloscPlugin.cpp:get_buffer", "cpp/frameProcessor/src/KafkaProducerPlugin.cpp:create_message"]}
{"id": "C166", "title": "The bytes of a complete frame were sent for it", "statement": "If no packet is a duplicate or late, every byte of a frame that the receiver hands on as complete was received in a datagram for that packet of that frame, whatever the lengths of the datagrams.", "quantifier": "all sequences of datagrams of any length, monitor runs and returned buffers, all accepted sizes, any earlier contents of the buffers", "why_tests_cant": "Needs datagrams that are cut short or empty, which a test sender does not produce, and buffers that have been used before.", "anchors": ["cpp/frameReceiver/src/FrameReceiverUDPRxThread.cpp:handle_receive_socket", "cpp/frameReceiver/src/DummyUDPFrameDecoder.cpp:process_packet_header", "cpp/frameReceiver/src/DummyUDPFrameDecoder.cpp:process_packet", "cpp/frameReceiver/src/DummyUDPFrameDecoder.cpp:get_next_payload_buffer"]}
{"id": "C167", "title": "The Kafka library is never called with a handle that is gone", "statement": "Whatever the order in which frames, configurations, requests for status and resets reach the Kafka plugin, the library is not called with a null pointer for the topic or the producer.", "quantifier": "all interleavings of the thread that processes frames and the thread that configures, all answers of the library", "why_tests_cant": "Needs a configuration in the few instructions between the look at the topic and the mutex; tests of the plugin run in one thread.", "anchors": ["cpp/frameProcessor/src/KafkaProducerPlugin.cpp:enqueue_frame", "cpp/frameProcessor/src/KafkaProducerPlugin.cpp:configure", "cpp/frameProcessor/src/KafkaProducerPlugin.cpp:destroy_kafka", "cpp/frameProcessor/src/KafkaProducerPlugin.cpp:configure_kafka_servers", "cpp/frameProcessor/src/KafkaProducerPlugin.cpp:configure_kafka_topic"]}
{"id": "C168", "title": "Every message taken by the Kafka library is accounted for", "statement": "When the library has no message left, every message it has taken has been counted as acknowledged, or its loss has been counted.", "quantifier": "all histories of frames, configurations, polls, resets, and all reports of the library, with counters that wrap at 2^32", "why_tests_cant": "Needs deliveries that fail or that are cut off by a configuration; a test against a broker sees neither.", "anchors": ["cpp/frameProcessor/src/KafkaProducerPlugin.cpp:on_message_ack", "cpp/frameProcessor/src/KafkaProducerPlugin.cpp:on_message_error", "cpp/frameProcessor/src/KafkaProducerPlugin.cpp:destroy_kafka", "cpp/frameProcessor/src/KafkaProducerPlugin.cpp:reset_statistics", "cpp/frameProcessor/src/KafkaProducerPlugin.cpp:status"]}
{"id": "C169", "title": "Data blocks have unique indices", "statement": "No two data blocks of the process have the same index, and the map of used blocks of a pool contains the blocks in use.", "quantifier": "all interleavings of any number of threads that allocate, take and return blocks of any sizes", "why_tests_cant": "Needs two threads that increment one counter at the same moment.", "anchors": ["cpp/frameProcessor/src/DataBlock.cpp:DataBlock", "cpp/frameProcessor/src/DataBlockPool.cpp:internal_allocate", "cpp/frameProcessor/src/DataBlockPool.cpp:internal_take", "cpp/frameProcessor/src/DataBlockPool.cpp:internal_release"]}
{"id": "C170", "title": "The simulator reports what it sent", "statement": "The numbers of packets and bytes that the simulator reports as sent are those of the datagrams it has sent, and the number of dropped packets is that of the packets it was told to drop.", "quantifier": "any number of frames and packets of any sizes, any outcome of each call of sendto", "why_tests_cant": "Needs sends that fail, or two gigabytes of data; nothing checks the log message.", "anchors": ["cpp/frameSimulator/src/FrameSimulatorPluginUDP.cpp:replay_frames", "cpp/frameSimulator/src/FrameSimulatorPluginUDP.cpp:send_packet", "cpp/frameSimulator/include/FrameSimulatorOptionsDummyUDP.h"]}
{"id": "C171", "title": "The packets to drop are those of the list", "statement": "With the option drop-packets the simulator drops, of every frame, exactly the packets whose numbers are in the list.", "quantifier": "all lists of decimal numbers, all frames", "why_tests_cant": "Needs every way to write the list.", "anchors": ["cpp/frameSimulator/src/FrameSimulatorPluginUDP.cpp:replay_frames", "cpp/frameSimulator/src/FrameSimulatorOption.cpp:set_list_option"]}
{"id": "C172", "title": "The file writer passes frames on", "statement": "Every frame that reaches the file writer is passed on to the plugins behind it, unless the file writer throws an exception.", "quantifier": "all states of the file writer, all frames and acquisition ids", "why_tests_cant": "Needs a plugin behind the file writer and all states in which a frame can come.", "anchors": ["cpp/frameProcessor/src/FileWriterPlugin.cpp:process_frame", "cpp/frameProcessor/src/FileWriterPlugin.cpp:frame_in_acquisition"]}
{"id": "C173", "title": "Destroying the file writer does not hang", "statement": "The destructor of the file writer ends its timeout thread and does not have to wait for the timeout to expire.", "quantifier": "every moment at which the destructor is called, every interleaving with the timeout thread, spurious wake-ups included", "why_tests_cant": "A race between two flags, two condition variables and two mutexes.", "anchors": ["cpp/frameProcessor/src/FileWriterPlugin.cpp:~FileWriterPlugin", "cpp/frameProcessor/src/FileWriterPlugin.cpp:run_close_file_timeout"]}
{"id": "C174", "title": "The timeout acts when and only when it was asked for", "statement": "The timeout stops no more acquisitions than it was started for, and starting it arms the timer.", "quantifier": "every history, spurious wake-ups of condition variables included", "why_tests_cant": "Spurious wake-ups and a request before the thread waits cannot be provoked.", "anchors": ["cpp/frameProcessor/src/FileWriterPlugin.cpp:start_close_file_timeout", "cpp/frameProcessor/src/FileWriterPlugin.cpp:run_close_file_timeout"]}
{"id": "C175", "title": "The frame receiver listens where it says", "statement": "Once the deferred actions are done, every channel of the frame receiver is bound to the endpoint in its configuration and to no other.", "quantifier": "every sequence of configure commands, every outcome of binding", "why_tests_cant": "Needs commands within a second of each other, or endpoints that cannot be bound.", "anchors": ["cpp/frameReceiver/src/FrameReceiverController.cpp:configure_ipc_channels", "cpp/frameReceiver/src/FrameReceiverController.cpp:unbind_channel", "cpp/frameReceiver/src/FrameReceiverController.cpp:setup_control_channel"]}
{"id": "C176", "title": "The statistics of the receiver are those since the last reset", "statement": "After the statistics of the frame receiver have been reset, its status tells no more than what has happened since, and never more frames released than received.", "quantifier": "every interleaving of the receiver thread, its status messages and the main thread", "why_tests_cant": "A reset has to fall between a status message and its arrival, or in the middle of an increment.", "anchors": ["cpp/frameReceiver/src/FrameReceiverController.cpp:reset_statistics", "cpp/frameReceiver/src/FrameReceiverController.cpp:get_status", "cpp/frameReceiver/src/FrameReceiverRxThread.cpp:fill_status_params"]}
{"id": "C177", "title": "Resetting the statistics does not disturb the data", "statement": "With resets of the statistics anywhere in a history, a decoder hands on and stores the same frames in the same buffers as without them.", "quantifier": "every history of the UDP and of the TCP decoder, resets at every place between packets and in the middle of packets", "why_tests_cant": "Resets are rare and the data of a run with them would have to be compared with the same run without.", "anchors": ["cpp/frameReceiver/src/DummyUDPFrameDecoder.cpp:reset_statistics", "cpp/frameReceiver/src/DummyTCPFrameDecoder.cpp:reset_statistics", "cpp/frameReceiver/src/FrameDecoder.cpp:reset_statistics"]}
{"id": "C178", "title": "A dataset has the type it was configured with, and that of its frames", "statement": "The elements of a dataset in the file are of the type named in the configuration; a frame or parameter is stored only if it is of this type, and a frame only if it is compressed as the filter of the dataset expects.", "quantifier": "every type name, every frame, every parameter, every state of an acquisition", "why_tests_cant": "All names and all combinations of types; a test would use the names that are known.", "anchors": ["cpp/frameProcessor/src/HDF5File.cpp:datatype_to_hdf_type", "cpp/frameProcessor/src/HDF5File.cpp:create_dataset", "cpp/frameProcessor/src/FileWriterPlugin.cpp:configure_dataset"]}
{"id": "C179", "title": "The reported configuration restores the frame receiver", "statement": "If the configuration that a frame receiver reports is sent to a new receiver and accepted there, the new one has the same settings, and its decoder is configured like that of the first one.", "quantifier": "every history of configuration commands of the first receiver, every configuration of its UDP decoder, every path of the new one, every outcome of the calls of the surroundings", "why_tests_cant": "All histories and all values of fourteen settings; a test would compare one report with one configuration.", "anchors": ["cpp/frameReceiver/src/FrameReceiverController.cpp:request_configuration", "cpp/frameReceiver/src/FrameReceiverController.cpp:configure", "cpp/frameReceiver/src/FrameDecoder.cpp:request_configuration", "cpp/frameReceiver/src/DummyUDPFrameDecoder.cpp:request_configuration", "cpp/frameReceiver/src/DummyUDPFrameDecoder.cpp:init", "cpp/frameReceiver/include/FrameReceiverConfig.h:CONFIG_FRAME_COUNT"]}
{"id": "C180", "title": "Messages compare equal exactly when they have the same content", "statement": "Two messages are equal (operator==) if and only if all their fields are the same: type, value, id, time stamp and the parameters, the latter irrespective of the order of members.", "quantifier": "all pairs of messages, with parameters of any nesting, any integers, doubles and strings", "why_tests_cant": "All pairs of nested values; the test of the project compares one message with its own copy.", "anchors": ["cpp/common/src/IpcMessage.cpp:operator==", "cpp/common/src/IpcMessage.cpp:has_params", "cpp/common/include/rapidjson/document.h:operator==", "cpp/frameReceiver/src/FrameReceiverController.cpp:configure_frame_decoder"]}
{"id": "C181", "title": "Destroying the file writer uses no member after its end", "statement": "Whatever happened to the file writer before, its destructor and the destructors of its members use no member that has already been destroyed.", "quantifier": "all sequences of starts, further files and stops, with any of the HDF5 calls failing", "why_tests_cant": "Needs a failing HDF5 call, and the stale value is usually still in memory; only a memory checker on that very path would notice.", "anchors": ["cpp/frameProcessor/include/FileWriterPlugin.h:hdf5_error_definition_", "cpp/frameProcessor/src/FileWriterPlugin.cpp:~FileWriterPlugin", "cpp/frameProcessor/src/FileWriterPlugin.cpp:start_writing", "cpp/frameProcessor/src/FileWriterPlugin.cpp:stop_writing", "cpp/frameProcessor/src/HDF5File.cpp:close_file", "cpp/frameProcessor/src/Acquisition.cpp:create_file"]}
{"id": "C182", "title": "Reading a parameter with a default gives the parameter if it is there", "statement": "get_param(name, default) returns the parameter of that path if the message has it, and the default exactly if it does not; paths are those of get_param(name) and set_param.", "quantifier": "all parameter documents of any nesting and all paths", "why_tests_cant": "The tests read a parameter of the top level and a missing one; paths with several components, odd names and parameters that are no object are not tried.", "anchors": ["cpp/common/include/IpcMessage.h:get_param", "cpp/frameReceiver/src/FrameReceiverRxThread.cpp:handle_rx_channel", "cpp/frameProcessor/src/SharedMemoryController.cpp:handleRxChannel"]}
{"id": "C183", "title": "The simulator keeps the interval between frames", "statement": "With a frame interval set, a frame whose sending takes less than the interval is followed by the next after the interval, within rounding; one that takes longer, at once.", "quantifier": "all intervals (floats), all starting times and all durations of sending, for runs of any length", "why_tests_cant": "Tests do not measure the times, and the error depends on where the second of the wall clock falls.", "anchors": ["cpp/frameSimulator/src/FrameSimulatorPluginUDP.cpp:replay", "cpp/frameSimulator/src/FrameSimulatorPlugin.cpp:setup"]}
{"id": "C184", "title": "A configuration that is refused leaves the plugin as it was", "statement": "If configure of a plugin throws, so that the client gets an error, the plugin has the configuration it had before; and no configuration makes it access memory outside of its arrays.", "quantifier": "all configuration documents and all states of the offset, parameter adjustment, dummy, Blosc, gap fill, Kafka and live view plugins", "why_tests_cant": "Tests send correct configurations, or one wrong value to a new plugin; what an exception leaves behind depends on which parameters come before the wrong one.", "anchors": ["cpp/frameProcessor/src/DummyUDPProcessPlugin.cpp:configure", "cpp/frameProcessor/src/BloscPlugin.cpp:configure", "cpp/frameProcessor/src/GapFillPlugin.cpp:configure", "cpp/frameProcessor/src/KafkaProducerPlugin.cpp:configure", "cpp/frameProcessor/src/LiveViewPlugin.cpp:configure", "cpp/frameProcessor/src/ParameterAdjustmentPlugin.cpp:configure", "cpp/frameProcessor/src/OffsetAdjustmentPlugin.cpp:configure"]}
{"id": "C185", "title": "A configuration that the file writer refuses leaves it as it was", "statement": "If the reply to a configuration of the file writer is an error, the writer has the configuration it had before; while it writes, no message changes the geometry.", "quantifier": "all configuration documents, all states of the writer, writing or not, all sets of paths that are directories", "why_tests_cant": "Tests send correct configurations or a single wrong value; what is left behind depends on the order of the parameters and on the datasets that exist.", "anchors": ["cpp/frameProcessor/src/FileWriterPlugin.cpp:configure", "cpp/frameProcessor/src/FileWriterPlugin.cpp:configure_process", "cpp/frameProcessor/src/FileWriterPlugin.cpp:configure_file", "cpp/frameProcessor/src/FileWriterPlugin.cpp:configure_dataset", "cpp/frameProcessor/src/FileWriterPlugin.cpp:create_new_dataset"]}
{"id": "C186", "title": "A configuration that the frame receiver refuses leaves it as it was", "statement": "If the reply to a configure command of the frame receiver is an error, the receiver has the settings it had before, and decoder, shared memory and receiver thread go on working.", "quantifier": "all configuration documents, all states of the controller after any history, all results of loading, binding and creating", "why_tests_cant": "Tests send correct configurations, or a wrong one to a receiver that does nothing yet; what is lost depends on where in the sequence the command is refused.", "anchors": ["cpp/frameReceiver/src/FrameReceiverController.cpp:configure", "cpp/frameReceiver/src/FrameReceiverController.cpp:configure_ipc_channels", "cpp/frameReceiver/src/FrameReceiverController.cpp:configure_frame_decoder", "cpp/frameReceiver/src/FrameReceiverController.cpp:configure_buffer_manager", "cpp/frameReceiver/src/FrameReceiverController.cpp:configure_rx_thread"]}
{"id": "C187", "title": "Each plugin gets exactly the part of a configuration that is under its name", "statement": "A configuration sent to the frame processor under the name of a plugin is given to that plugin, once, and to no other one, and is accepted if the plugin accepts it.", "quantifier": "all sets of plugins and their names, all configuration documents, all plugins that accept or refuse", "why_tests_cant": "The names of plugins are free texts chosen by the client; tests use a few plain ones and configure one plugin at a time.", "anchors": ["cpp/frameProcessor/src/FrameProcessorController.cpp:configure", "cpp/frameProcessor/src/FrameProcessorController.cpp:loadPlugin", "cpp/common/src/IpcMessage.cpp:has_param", "cpp/common/include/IpcMessage.h:get_param"]}
{"id": "C188", "title": "The configuration that a frame processor reports restores it", "statement": "A frame processor that is sent the configuration it has reported accepts it and stays as it is.", "quantifier": "all sequences of configurations before, all sets of loaded plugins with names of their own, all endpoints", "why_tests_cant": "The report is only compared with expected values in tests; nobody sends it back, and the endpoint of the control channel is bound once per test.", "anchors": ["cpp/frameProcessor/src/FrameProcessorController.cpp:requestConfiguration", "cpp/frameProcessor/src/FrameProcessorController.cpp:configure", "cpp/frameProcessor/src/FrameProcessorController.cpp:setupControlInterface", "cpp/frameProcessor/src/FrameProcessorController.cpp:setupMetaTxInterface", "cpp/frameProcessor/src/FrameProcessorController.cpp:setupFrameReceiverInterface", "cpp/frameProcessor/src/SharedMemoryController.cpp:SharedMemoryController"]}
{"id": "C189", "title": "File writers that share a directory do not disturb each other", "statement": "Several processes that write into one directory, with ranks of their own, the same number of processes and the same settings for file names, leave in every file of theirs what they would have left alone, in whatever order they act.", "quantifier": "all numbers of processes, all orders of starts and frames, all receivers and plugins, all contents of the directory before", "why_tests_cant": "Tests start one process. Which names collide depends on the numbers of the files and on the starting index, and a collision shows only if the processes act in a certain order.", "anchors": ["cpp/frameProcessor/src/Acquisition.cpp:process_frame", "cpp/frameProcessor/src/Acquisition.cpp:create_file", "cpp/frameProcessor/src/Acquisition.cpp:get_file", "cpp/frameProcessor/src/Acquisition.cpp:generate_filename", "cpp/frameProcessor/src/Acquisition.cpp:start_acquisition"]}
{"id": "C190", "title": "The HDF5 library is used by one thread at a time", "statement": "The HDF5 library is not safe to be used by several threads unless it was built for it. At no time are two threads of the processor in it.", "quantifier": "all numbers of file writers, all frames, ends of acquisitions, commands and timeouts, all schedules of the threads", "why_tests_cant": "Two threads meet in the library for a moment only, and most meetings do no visible harm; the tests use one thread.", "anchors": ["cpp/frameProcessor/src/FileWriterPlugin.cpp:process_frame", "cpp/frameProcessor/src/FileWriterPlugin.cpp:process_end_of_acquisition", "cpp/frameProcessor/src/FileWriterPlugin.cpp:execute", "cpp/frameProcessor/src/FileWriterPlugin.cpp:run_close_file_timeout", "cpp/frameProcessor/src/HDF5File.cpp:create_file"]}
{"id": "C191", "title": "Errors of the HDF5 library are reported with their own stack", "statement": "When a call of the HDF5 library made by a file object fails, the exception carries the message of the first call that failed, and the log the stack of errors of that call, whole, and no others.", "quantifier": "all uses of the library before, all file objects, all member functions, all calls that fail, at any depth", "why_tests_cant": "The calls hardly ever fail in a test, and nothing looks at the stack in the log.", "anchors": ["cpp/frameProcessor/src/HDF5File.cpp:handle_h5_error", "cpp/frameProcessor/src/HDF5File.cpp:hdf_error_handler", "cpp/frameProcessor/src/HDF5File.cpp:clear_hdf_errors", "cpp/frameProcessor/src/HDF5File.cpp:HDF5File", "cpp/frameProcessor/src/HDF5File.cpp:create_dataset"]}
{"id": "C192", "title": "The frame decoder is loaded from the configured directory", "statement": "The library from which a frame decoder is loaded is in the configured directory, and its name is that of the type of the decoder, whether or not the directory is given with a slash at its end; different types are different classes in different libraries.", "quantifier": "all paths and all types, of any length, with any characters", "why_tests_cant": "Tests use one path and the types of the decoders that come with the software.", "anchors": ["cpp/frameReceiver/src/FrameReceiverController.cpp:configure_frame_decoder"]}
{"id": "C193", "title": "A frame decoder has the settings of the configuration it accepts", "statement": "A frame decoder that accepts a configuration message reports, of its settings, those in the message with the value of the message, and the others as before; this holds of the UDP and of the TCP decoder.", "quantifier": "all messages, all states of a decoder, both decoders", "why_tests_cant": "The tests of the TCP decoder give it an empty configuration.", "anchors": ["cpp/frameReceiver/src/DummyTCPFrameDecoder.cpp:init", "cpp/frameReceiver/src/DummyTCPFrameDecoder.cpp:request_configuration", "cpp/frameReceiver/src/DummyTCPFrameDecoder.cpp:get_frame_buffer_size", "cpp/frameReceiver/src/DummyUDPFrameDecoder.cpp:init", "cpp/frameReceiver/src/FrameDecoder.cpp:init"]}
{"id": "C194", "title": "The time stamp of a message is read as the time that was written", "statement": "The text written for the creation time of a message is read by the receiver as that time to the microsecond, and a text that is accepted with a day in front is a time of that day.", "quantifier": "all times in the years 1400 to 9999, all texts, all messages", "why_tests_cant": "The tests compare the time stamps of a few messages made in the same minute, none at the turn of a month, of a leap year or without a fraction.", "anchors": ["cpp/common/src/IpcMessage.cpp:get_msg_timestamp", "cpp/common/src/IpcMessage.cpp:valid_msg_timestamp", "cpp/common/src/IpcMessage.cpp:encode", "cpp/common/src/IpcMessage.cpp:IpcMessage"]}
{"id": "C195", "title": "The pools of blocks count the blocks in use, also after they have been deleted", "statement": "Whatever blocks are taken and given back, and whenever the pools are deleted, the number of blocks in use that a pool reports is the number of blocks of its size in use, and no block is handed to two users.", "quantifier": "all sequences of allocations, requests, releases and deletions of the pools, all sizes", "why_tests_cant": "The tests delete the pools, if at all, when no frame is left.", "anchors": ["cpp/frameProcessor/src/DataBlockPool.cpp:tearDownClass", "cpp/frameProcessor/src/DataBlockPool.cpp:instance", "cpp/frameProcessor/src/DataBlockPool.cpp:internal_release", "cpp/frameProcessor/src/DataBlockPool.cpp:get_used_blocks", "cpp/frameProcessor/src/FrameProcessorController.cpp:shutdown"]}
{"id": "C196", "title": "A program with a fault says which one and ends", "statement": "A receiver or processor that is hit by SIGABRT, SIGSEGV, SIGBUS, SIGILL, SIGFPE or SIGPIPE, in whatever thread, writes the number and the name of the signal and ends with this number as its status.", "quantifier": "all six signals, all threads and states of the program, all static objects", "why_tests_cant": "The tests do not install the handler, and a fault would end the test.", "anchors": ["cpp/common/include/SegFaultHandler.h:abort_handler", "cpp/common/include/SegFaultHandler.h:init_seg_fault_handler", "cpp/common/src/IpcChannel.cpp:Instance", "cpp/frameReceiver/src/FrameReceiverApp.cpp:controller_", "cpp/frameProcessor/src/FrameProcessorApp.cpp:controller_", "cpp/common/src/IpcReactor.cpp:run"]}
{"id": "C197", "title": "At the end of the processor nothing keeps its plugins alive", "statement": "Whatever plugins were loaded, connected and disconnected, all of them and the controller are destroyed at the end of the program, after shutdown and also after an exception in its configuration, so that the program ends.", "quantifier": "all sequences of messages that load, connect and disconnect plugins, any number of plugins, both ways in which run ends", "why_tests_cant": "The tests of plugins do not have a controller, and those of the controller connect no plugins in a cycle; that a program does not end is not seen by a test.", "anchors": ["cpp/frameProcessor/src/FrameProcessorController.cpp:connectPlugin", "cpp/frameProcessor/src/FrameProcessorController.cpp:loadPlugin", "cpp/frameProcessor/src/FrameProcessorController.cpp:shutdown", "cpp/frameProcessor/src/FrameProcessorController.cpp:disconnectAllPlugins", "cpp/frameProcessor/src/FrameProcessorPlugin.cpp:register_callback", "cpp/frameProcessor/src/FrameProcessorApp.cpp:run"]}
{"id": "C198", "title": "No message about a buffer is dropped between receiver and processor", "statement": "While a receiver and a processor run, each buffer is empty, on its way, or in the processor: no message that a frame is ready or that a buffer is released is dropped on the way, however many buffers there are and however slow the processor is.", "quantifier": "all numbers of buffers, all limits of the pipes, all interleavings of the thread and the controller of the receiver and the processor, with any other messages in between", "why_tests_cant": "Messages are dropped only when more than a thousand of them wait, with more than a thousand buffers and a processor that is slow for a while; there is no error and no counter that shows it.", "anchors": ["cpp/frameReceiver/src/FrameReceiverController.cpp:handle_rx_channel", "cpp/frameReceiver/src/FrameReceiverController.cpp:handle_frame_release_channel", "cpp/frameReceiver/src/FrameReceiverRxThread.cpp:frame_ready", "cpp/frameProcessor/src/SharedMemoryController.cpp:handleRxChannel", "cpp/frameProcessor/src/SharedBufferFrame.cpp:~SharedBufferFrame", "cpp/common/src/IpcChannel.cpp:send"]}
{"id": "C199", "title": "A line of the log tells where it comes from", "statement": "Every line of the log of a program has the name of the host, the number of the process, the name of the program and the user, and lines of different threads have different names of threads.", "quantifier": "all names of hosts, paths of programs and users, all ways in which threads start each other, configure their log and write", "why_tests_cant": "Tests write to the log from one thread, and do not read it.", "anchors": ["cpp/common/src/logging.cpp:configure_logging_mdc", "cpp/frameReceiver/src/FrameReceiverRxThread.cpp:run_service", "cpp/frameProcessor/src/FrameProcessorController.cpp:runIpcService", "cpp/frameProcessor/src/IFrameCallback.cpp:workerTask"]}
{"id": "C200", "title": "The simulator sends what its command line says", "statement": "If the simulator sends frames, then each of its settings is the value given for it on the command line, or the usual one if none is given.", "quantifier": "all command lines: options in every order and number, known and unknown ones, all values, whatever can be converted", "why_tests_cant": "Tests start the simulator with correct options, each given once.", "anchors": ["cpp/frameSimulator/include/FrameSimulatorOption.h:get_val", "cpp/frameSimulator/src/FrameSimulatorApp.cpp:parse_arguments", "cpp/frameSimulator/src/FrameSimulatorPluginUDP.cpp:setup", "cpp/frameSimulator/src/DummyUDPFrameSimulatorPlugin.cpp:setup"]}
{"id": "C201", "title": "Packets are left out with the fraction asked for, and pauses come after every so many packets", "statement": "With a drop fraction, the share of the random numbers for which a packet is left out is that fraction; every packet of a frame is sent or left out, once and in order, and with a packet gap there is a pause after every so many packets sent.", "quantifier": "all fractions, all lists of packets to leave out, all gaps, all sequences of random numbers, frames with any number of packets", "why_tests_cant": "Tests send few packets, with one fraction, and the random numbers are the same in every run; the number that matters comes once in 2^31 draws.", "anchors": ["cpp/frameSimulator/src/FrameSimulatorPluginUDP.cpp:replay_frames", "cpp/frameSimulator/include/FrameSimulatorOptionsUDP.h:opt_dropfrac"]}
